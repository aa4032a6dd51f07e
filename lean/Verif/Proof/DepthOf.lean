import Verif.Proof.Depth
import Verif.Proof.SizeOf

/-! # The depth of the result of every type -/

namespace Verif.Depths
open Nom Spec Source Properties Sizes

theorem nest_word {w s : Str} (h : ∀ c ∈ w, NoBracket c) (hw : w ≠ []) : nest (w ++ s) = levels [w] (nest s) := by
  rw [nest_plains h, levels_plain]
  · rfl
  · refine ⟨?_, ?_, ?_, ?_⟩ <;> rintro rfl <;> exact h _ (List.mem_singleton.2 rfl) (by decide)

theorem nest_lexeme {ls : List Str} (h : Good ls) : ∀ w ∈ ls, ∀ s, nest (w ++ s) = levels [w] (nest s) := fun w hw s => by
  have hn := nonempty_of_good h w hw
  rcases h.lexemes w hw with (⟨i, h⟩ | rfl | ⟨v, h⟩ | ⟨p, -, -, rfl⟩) | h
  · have h1 : LeafText .ident w i := ⟨by simpa using h.2, h.1⟩
    rw [Flat.flat w i h1, levels_plain]
    · rfl
    · rcases h.2 with h2 | h2 <;> simp at h2 <;> subst h2
      · exact (plain_word h.1).1
      · exact (plain_word h.1).2
  · exact nest_word (by unfold NoBracket; decide) hn
  · obtain ⟨h1, h⟩ := h
    simp at h
    subst h
    rw [show '"' :: (v ++ ['"']) ++ s = '"' :: v ++ ['"'] ++ s from rfl, nest_string h1, levels_plain]
    · rfl
    · refine ⟨?_, ?_, ?_, ?_⟩ <;> intro h <;> simp at h
  · by_cases hp : p = .openParen ∨ p = .lessThan ∨ p = .closeParen ∨ p = .greaterThan
    · rcases hp with rfl | rfl | rfl | rfl <;> simp [Punct.text, nest, nesting, levels]
    · exact nest_word (by unfold NoBracket; cases p <;> simp at hp <;> decide) hn
  · exact nest_word (fun c hc => plain_num (h.chars c hc)) hn

theorem reads_nest {s r : Str} {ls : List Str} (h : Reads CStep s ls r)
    (hl : ∀ w ∈ ls, ∀ s, nest (w ++ s) = levels [w] (nest s)) : nest s = levels ls (nest r) := by
  induction h with
  | nil => rfl
  | @cons s _ r w ls h _ ih =>
    obtain ⟨e, h1, -, rfl⟩ := h
    have ih := ih fun w hw => hl w (List.mem_cons_of_mem _ hw)
    rw [← nest_strip s, h1, hl w (by simp) e, ← nest_strip e, ih]
    exact (levels_append [w] ls (nest r)).symm

/-- The result is at most `c` deeper than the brackets of the text allow, and no brackets are opened for the rest of the text. -/
def NestedBy {α : Type} (c : Nat) (g : G α) (v : α → Val) : Prop :=
  ∀ s r a, g.parse s = .ok r a → nest r ≤ nest s ∧ (v a).depth ≤ 12 * nest s + c

def Nested {α : Type} (g : G α) (v : α → Val) : Prop := ∃ c, NestedBy c g v

theorem nested_of {α : Type} {g : G α} {L : α → Lang} {v : α → Val} {c : Nat} (hs : Snd charLeaf CStep (ntLim charLeaf) g L)
    (hn : ∀ a ls, L a ls → ∀ w ∈ ls, ∀ s, nest (w ++ s) = levels [w] (nest s)) (h : ∀ a, Deep ((v a).depth - c) (L a)) :
    Nested g v :=
  ⟨c, fun s r a e => by
    obtain ⟨ls, h1, h2⟩ := hs s r a e
    have h3 := reads_nest h1 (hn a ls h2)
    have h4 := h a ls h2 (nest r)
    omega⟩

section
variable {α β γ : Type} {g : G α} {g' : G β} {g'' : G γ} {v : α → Val} {v' : β → Val} {v'' : γ → Val} {p : α → Prop}
  {L : α → Lang} {c : Nat}

theorem nested_part' (hp : PartOf g L) (h : ∀ a, Deep ((v a).depth - c) (L a)) : Nested g v :=
  nested_of hp.part.snd (fun a ls hl => fun w hw =>
    nest_lexeme ((hp.part.loose a ls hl).1 c!";" (by simp [Stop]) [] trivial) w (by simp [hw])) h

theorem nested_whole' (hp : WholeOf g L) (h : ∀ a, Deep ((v a).depth - c) (L a)) : Nested g v :=
  nested_of hp.whole.snd (fun a ls hl => nest_lexeme (hp.whole.good a ls hl)) h

theorem payload_depth (v : Val) : v.payload.depth ≤ v.depth := by
  cases v <;> simp [Val.payload]

theorem Deep.only {n : Nat} {a : α} (h : Deep n (L a)) : Deep n (only p L a) :=
  fun ls hl => h ls hl.2

theorem nested_partPayload (hp : PartOf g (only p L)) (h : ∀ a, Deep ((v a).depth - c) (L a)) :
    Nested g (fun a => (v a).payload) :=
  nested_part' (c := c) hp fun a => (h a).only.mono (by have := payload_depth (v a); omega)

theorem nested_wholePayload (hp : WholeOf g (only p L)) (h : ∀ a, Deep ((v a).depth - c) (L a)) :
    Nested g (fun a => (v a).payload) :=
  nested_whole' (c := c) hp fun a => (h a).only.mono (by have := payload_depth (v a); omega)

/-! ## Types with parameters -/

theorem NestedBy.mono {c' : Nat} (h : NestedBy c g v) (hc : c ≤ c') : NestedBy c' g v := fun s r a e => by
  have := h s r a e
  omega

theorem Nested.option (h : Nested g v) : Nested (.opt g) (optVal v) := by
  obtain ⟨c, h⟩ := h
  refine ⟨c + 1, fun s r o e => ?_⟩
  rcases parse_opt e with ⟨rfl, rfl⟩ | ⟨a, rfl, e'⟩
  · simp [optVal]
    omega
  · have := h _ _ _ e'
    simp only [optVal, depth_some]
    omega

theorem Nested.box (h : Nested g v) : Nested g (fun a => .box (v a)) := by
  obtain ⟨c, h⟩ := h
  refine ⟨c + 1, fun s r a e => ?_⟩
  have := h _ _ _ e
  simp only [depth_box]
  omega

theorem NestedBy.chain (h : NestedBy c g v) {s r : Str} {as : List α}
    (hc : Chain g.parse s as r) : nest r ≤ nest s ∧ Val.depths (as.map v) ≤ 12 * nest s + c := by
  induction hc with
  | nil => simp [Val.depths]
  | cons e hne _ ih =>
    have := h _ _ _ e
    simp only [List.map_cons, Val.depths]
    omega

theorem Nested.vec (h : Nested g v) (hp : Suff g.parse) : Nested (.many0 g) (fun as => .list (as.map v)) := by
  obtain ⟨c, h⟩ := h
  refine ⟨c + 1, fun s r as e => ?_⟩
  have := h.chain ((many0_ok_iff hp).1 e).1
  simp only [depth_list]
  omega

theorem NestedBy.sepChain {sep : G β} (h : NestedBy c g v) (hsep : ∀ s r b, sep.parse s = .ok r b → nest r ≤ nest s) {s r : Str}
    {as : List α} (hc : SepChain sep.parse g.parse s as r) :
    nest r ≤ nest s ∧ Val.depths (as.map v) ≤ 12 * nest s + c := by
  induction hc with
  | nil => simp [Val.depths]
  | cons e' hne e _ ih =>
    have := hsep _ _ _ e'
    have := h _ _ _ e
    simp only [List.map_cons, Val.depths]
    omega

theorem Nested.punctuated {sep : G β} (h : Nested g v) (hp : Suff g.parse) (hsep : Suff sep.parse)
    (hsep' : ∀ s r b, sep.parse s = .ok r b → nest r ≤ nest s) (k : Val) :
    Nested (G.punctuated g sep) (fun as => punctuatedVal k (as.map v)) := by
  obtain ⟨c, h⟩ := h
  refine ⟨c + k.depth + 2, fun s r as e => ?_⟩
  rcases (separatedList_ok_iff hsep hp).1 e with ⟨rfl, rfl, -⟩ | ⟨a, as, m, rfl, e1, hne, hc, -⟩
  · simp [Val.depths]
    omega
  · have := h.sepChain hsep' hc
    have := h _ _ _ e1
    simp only [depth_punctuated, List.map_cons, Val.depths]
    omega

theorem Nested.punctuatedNonEmpty {sep : G β} (h : Nested g v) (hp : Suff g.parse) (hsep : Suff sep.parse)
    (hsep' : ∀ s r b, sep.parse s = .ok r b → nest r ≤ nest s) (k : Val) :
    Nested (G.punctuatedNonEmpty g sep) (fun as => punctuatedNonEmptyVal k (as.map v)) := by
  obtain ⟨c, h⟩ := h
  refine ⟨c + k.depth + 2, fun s r as e => ?_⟩
  obtain ⟨m, as', e1, e⟩ := parse_bind.1 e
  obtain ⟨n, o, e2, e⟩ := parse_bind.1 e
  cases e
  have h5 : nest r ≤ nest m := by
    rcases parse_opt e2 with ⟨-, rfl⟩ | ⟨b, -, e2⟩
    · exact Nat.le_refl _
    · exact hsep' _ _ _ e2
  obtain ⟨a, as, m, rfl, e3, hne, hc, -⟩ := (separatedNonemptyList_ok_iff hsep hp).1 e1
  have := h.sepChain hsep' hc
  have := h _ _ _ e3
  simp only [depth_punctuatedNonEmpty, List.map_cons, Val.depths]
  omega

theorem flat_parse {δ : Type} {l : Leaf δ} [Flat l] {s r : Str} {a : δ} (e : (G.leaf l).parse s = .ok r a) : nest r = nest s :=
  flat_leaf e

/-- Terminals other than closing brackets. -/
theorem punct_nest {p : Punct} (hp : p ≠ .closeParen) (hp' : p ≠ .greaterThan) {s r : Str} {u : Unit}
    (e : (G.punct p).parse s = .ok r u) : nest r ≤ nest s := by
  have flat : Flat (.punct p) → nest r ≤ nest s := fun _ => Nat.le_of_eq (flat_parse e)
  cases p with
  | openParen => exact Nat.le_trans (Nat.le_succ _) (Nat.le_of_eq (open_leaf (.inl rfl) e))
  | lessThan => exact Nat.le_trans (Nat.le_succ _) (Nat.le_of_eq (open_leaf (.inr rfl) e))
  | closeParen => exact absurd rfl hp
  | greaterThan => exact absurd rfl hp'
  | _ => exact flat inferInstance

theorem kw_nest {k : Kw} {s r : Str} {u : Unit} (e : (G.kw k).parse s = .ok r u) : nest r ≤ nest s :=
  Nat.le_of_eq (flat_parse e)

theorem Nested.round {p q : Punct} {f : Val → Val} (hf : ∀ w, (f w).depth = 1 + w.depth)
    (hp : p = .openParen ∨ p = .lessThan) (hq : q = .closeParen ∨ q = .greaterThan) (h : Nested g v) :
    Nested (do G.punct p; let x ← g; G.punct q; pure x : G α) (fun a => f (v a)) := by
  obtain ⟨c, h⟩ := h
  refine ⟨c + 1, fun s r a e => ?_⟩
  obtain ⟨m, u, e1, e⟩ := parse_bind.1 e
  obtain ⟨n, b, e2, e⟩ := parse_bind.1 e
  obtain ⟨k, u', e3, e⟩ := parse_bind.1 e
  cases e
  have h2 := h _ _ _ e2
  rw [hf]
  have h1 := open_leaf hp e1
  have h3 := close_leaf hq e3
  omega

theorem Nested.between {p q : Punct} {f : Val → Val} (hf : ∀ w, (f w).depth = 1 + w.depth) [Flat (.punct p)] [Flat (.punct q)]
    (h : Nested g v) :
    Nested (do G.punct p; let x ← g; G.punct q; pure x : G α) (fun a => f (v a)) := by
  obtain ⟨c, h⟩ := h
  refine ⟨c + 1, fun s r a e => ?_⟩
  obtain ⟨m, u, e1, e⟩ := parse_bind.1 e
  obtain ⟨n, b, e2, e⟩ := parse_bind.1 e
  obtain ⟨k, u', e3, e⟩ := parse_bind.1 e
  cases e
  have h2 := h _ _ _ e2
  rw [hf]
  have h1 := flat_parse e1
  have h3 := flat_parse e3
  omega

theorem Nested.pair (h : Nested g v) (h' : Nested g' v') :
    Nested (do let x ← g; let y ← g'; pure (x, y)) (fun p => .pair (v p.1) (v' p.2)) := by
  obtain ⟨c, h⟩ := h
  obtain ⟨c', h'⟩ := h'
  refine ⟨c + c' + 1, fun s r x e => ?_⟩
  obtain ⟨m, a, e1, e⟩ := parse_bind.1 e
  obtain ⟨n, b, e2, e⟩ := parse_bind.1 e
  cases e
  have := h _ _ _ e1
  have := h' _ _ _ e2
  simp only [depth_pair]
  omega

theorem Nested.triple (h : Nested g v) (h' : Nested g' v') (h'' : Nested g'' v'') :
    Nested (do let x ← g; let y ← g'; let z ← g''; pure (x, y, z))
      (fun p => .triple (v p.1) (v' p.2.1) (v'' p.2.2)) := by
  obtain ⟨c, h⟩ := h
  obtain ⟨c', h'⟩ := h'
  obtain ⟨c'', h''⟩ := h''
  refine ⟨c + c' + c'' + 1, fun s r x e => ?_⟩
  obtain ⟨m, a, e1, e⟩ := parse_bind.1 e
  obtain ⟨n, b, e2, e⟩ := parse_bind.1 e
  obtain ⟨k, z, e3, e⟩ := parse_bind.1 e
  cases e
  have := h _ _ _ e1
  have := h' _ _ _ e2
  have := h'' _ _ _ e3
  simp only [depth_triple]
  omega

theorem Nested.mayBeNull (h : Nested g v) : Nested (G.mayBeNull (fun a q => (a, q)) g) (fun p => nullVal (v p.1) p.2) := by
  obtain ⟨c, h⟩ := h
  refine ⟨c + 3, fun s r x e => ?_⟩
  obtain ⟨m, a, e1, e⟩ := parse_bind.1 e
  obtain ⟨n, q, e2, e⟩ := parse_bind.1 e
  cases e
  have := h _ _ _ e1
  have h3 : nest r ≤ nest m := by
    obtain ⟨_, o, e3, h4⟩ := parse_bind.1 e2
    cases h4
    rcases parse_opt e3 with ⟨-, rfl⟩ | ⟨u, -, e4⟩
    · exact Nat.le_refl _
    · exact Nat.le_of_eq (flat_parse e4)
  have : (flagVal (punctVal .qMark) q).depth ≤ 2 := by cases q <;> simp [flagVal]
  simp only [depth_null]
  omega

end

theorem Nested.call {α : Type} {N : NT α} {v : α → Val} (h : Nested (G.body N) v) : Nested (.call N) v := by
  obtain ⟨c, h⟩ := h
  refine ⟨c, fun s r a e => ?_⟩
  rw [call_parse] at e
  exact h s r a e

theorem deep_operationAlone (m : OperationInterfaceMember) :
    Deep ((operationInterfaceMemberVal m).depth - 10) (operationAlone m) := by
  have h1 := depth_special m.special
  have h2 := depth_stringifierOrStatic m.modifier
  have h3 := deep_returnNamed m.returnType m.identifier
  refine ((deep_attributes _).seq (deep_modified _ (deep_specialised _ (h3.seq ((deep_argumentList _).seq (.tok _)))))).mono ?_
  simp [operationInterfaceMemberVal, Nat.max_le, Nat.sub_le_iff_le_add]
  omega

theorem deep_includesAlone (d : Definition) : Deep ((definitionVal d).depth - 16) (includesAlone d) := by
  cases d with
  | includesStatement as l r =>
    exact ((deep_attributes _).seq ((Deep.name _).seq ((Deep.tok _).seq ((Deep.name _).seq
      (.tok _))))).mono (by simp [definitionVal] <;> omega)
  | _ => exact fun _ h => h.elim

theorem deep_implementsAlone (d : Definition) : Deep ((definitionVal d).depth - 16) (implementsAlone d) := by
  cases d with
  | implements as l r =>
    exact ((deep_attributes _).seq ((Deep.name _).seq ((Deep.tok _).seq ((Deep.name _).seq
      (.tok _))))).mono (by simp [definitionVal] <;> omega)
  | _ => exact fun _ h => h.elim

theorem punctType_closeParen {p : Punct} (h : punctType p ≠ c!"CloseParen") : p ≠ .closeParen := by
  rintro rfl
  exact h rfl

theorem punctType_greaterThan {p : Punct} (h : punctType p ≠ c!"GreaterThan") : p ≠ .greaterThan := by
  rintro rfl
  exact h rfl

theorem comma_nest : ∀ s r b, (G.punct .comma).parse s = .ok r b → nest r ≤ nest s :=
  fun _ _ _ => punct_nest (by simp) (by simp)

theorem brackets_nest {p q : Punct} [Flat (.punct p)] [Flat (.punct q)] {s r : Str} {u : Unit}
    (e : (do G.punct p; G.punct q; pure () : G Unit).parse s = .ok r u) : nest r ≤ nest s := by
  obtain ⟨m, u, e1, e⟩ := parse_bind.1 e
  obtain ⟨n, u, e2, e⟩ := parse_bind.1 e
  cases e
  exact Nat.le_of_eq ((flat_parse e2).trans (flat_parse e1))

theorem nested {α : Type} {T : RTy} {g : G α} {v : α → Val} (h : TypeOf T g v)
    (h1 : T.Without c!"CloseParen") (h2 : T.Without c!"GreaterThan") : Nested g v := by
  induction h with
  | punct p =>
    exact ⟨1, fun s r a e => ⟨punct_nest (punctType_closeParen h1) (punctType_greaterThan h2) e, by simp⟩⟩
  | kw p => exact ⟨1, fun s r a e => ⟨kw_nest e, by simp⟩⟩
  | option _ ih => exact (ih h1.2 h2.2).option
  | box _ ih => exact (ih h1.2 h2.2).box
  | vec h ih => exact (ih h1.2 h2.2).vec (suff_of h)
  | pair _ _ ih ih' => exact (ih h1.2.1 h2.2.1).pair (ih' h1.2.2 h2.2.2)
  | triple _ _ _ ih ih' ih'' =>
    exact (ih h1.2.1 h2.2.1).triple (ih' h1.2.2.1 h2.2.2.1) (ih'' h1.2.2.2 h2.2.2.2)
  | parenthesized _ ih => exact (ih h1.2 h2.2).round depth_paren (.inl rfl) (.inl rfl)
  | bracketed _ ih => exact (ih h1.2 h2.2).between depth_bracket
  | braced _ ih => exact (ih h1.2 h2.2).between depth_brace
  | generics _ ih => exact (ih h1.2 h2.2).round depth_generics (.inr rfl) (.inr rfl)
  | punctuatedPunct p h ih =>
    exact (ih h1.2.1 h2.2.1).punctuated (suff_of h) (suff_of (.punct p))
      (fun _ _ _ => punct_nest (punctType_closeParen h1.2.2) (punctType_greaterThan h2.2.2)) _
  | punctuatedKw p h ih =>
    exact (ih h1.2.1 h2.2.1).punctuated (suff_of h) (suff_of (.kw p)) (fun _ _ _ => kw_nest) _
  | punctuatedNonEmptyPunct p h ih =>
    exact (ih h1.2.1 h2.2.1).punctuatedNonEmpty (suff_of h) (suff_of (.punct p))
      (fun _ _ _ => punct_nest (punctType_closeParen h1.2.2) (punctType_greaterThan h2.2.2)) _
  | punctuatedNonEmptyKw p h ih =>
    exact (ih h1.2.1 h2.2.1).punctuatedNonEmpty (suff_of h) (suff_of (.kw p)) (fun _ _ _ => kw_nest) _
  | mayBeNull _ ih => exact (ih h1.2 h2.2).mayBeNull
  | argumentList =>
    exact (Nested.call (N := .argument) (nested_part' .argument deep_argument)).punctuated (suff inferInstance) (suff_of (.punct .comma)) comma_nest _
  | argument => exact nested_part' .argument deep_argument
  | singleArgument => exact nested_partPayload .singleArgument deep_argument
  | variadicArgument => exact nested_partPayload .variadicArgument deep_argument
  | extendedAttributeList =>
    exact ((nested_part' .extAttr fun a => (deep_extAttr a)).punctuated (suff_of .extendedAttribute)
      (suff_of (.punct .comma)) comma_nest _).between depth_bracket
  | identifierList =>
    exact (nested_part' (c := 2) .ident fun a => (Deep.name a).mono (by simp)).punctuated (suff_of .identifier)
      (suff_of (.punct .comma)) comma_nest _
  | extendedAttribute => exact nested_part' .extAttr fun a => (deep_extAttr a)
  | extendedAttributeArgList => exact nested_partPayload .extAttrArgList fun a => (deep_extAttr a)
  | extendedAttributeNamedArgList => exact nested_partPayload .extAttrNamedArgList fun a => (deep_extAttr a)
  | extendedAttributeIdentList => exact nested_partPayload .extAttrIdentList fun a => (deep_extAttr a)
  | extendedAttributeIdent => exact nested_partPayload .extAttrIdent fun a => (deep_extAttr a)
  | extendedAttributeWildCard => exact nested_partPayload .extAttrWildcard fun a => (deep_extAttr a)
  | extendedAttributeNoArgs => exact nested_partPayload .extAttrNoArgs fun a => (deep_extAttr a)
  | identifierOrString => exact nested_part' .identifierOrString fun a => (deep_identifierOrString a)
  | identifier => exact nested_part' (c := 2) .ident fun a => (Deep.name a).mono (by simp)
  | default =>
    exact nested_part' (c := 5) .default fun a => (deep_default (some a)).mono (by simp [optVal] <;> omega)
  | dictionaryMembers => exact (nested_whole' .dictionaryMember deep_dictionaryMember).vec (suff_of .dictionaryMember)
  | dictionaryMember => exact nested_whole' .dictionaryMember deep_dictionaryMember
  | interfaceMembers => exact (nested_whole' .interfaceMember deep_interfaceMember).vec (suff_of .interfaceMember)
  | inheritance => exact nested_part' (c := 3) .inheritance fun a => (deep_inheritance (some a)).mono (by simp [optVal] <;> omega)
  | interfaceMember => exact nested_whole' .interfaceMember deep_interfaceMember
  | constMember => exact nested_whole' .constMember fun a => (deep_constMember _ a)
  | attributeInterfaceMember =>
    exact nested_whole' .attributeInterfaceMember fun a => (deep_attributeInterfaceMember a)
  | constructorInterfaceMember =>
    exact nested_whole' .constructorInterfaceMember fun a => (deep_constructorInterfaceMember a)
  | operationInterfaceMember =>
    exact nested_whole' .operationInterfaceMember fun a => (deep_operationAlone a)
  | iterableInterfaceMember => exact nested_whole' .iterable fun a => (deep_iterableInterfaceMember a)
  | singleTypedIterable => exact nested_wholePayload .singleTypedIterable fun a => (deep_iterableInterfaceMember a)
  | doubleTypedIterable => exact nested_wholePayload .doubleTypedIterable fun a => (deep_iterableInterfaceMember a)
  | asyncIterableInterfaceMember =>
    exact nested_whole' .asyncIterable fun a => (deep_asyncIterableInterfaceMember a)
  | singleTypedAsyncIterable =>
    exact nested_wholePayload .singleTypedAsyncIterable fun a => (deep_asyncIterableInterfaceMember a)
  | doubleTypedAsyncIterable =>
    exact nested_wholePayload .doubleTypedAsyncIterable fun a => (deep_asyncIterableInterfaceMember a)
  | maplikeInterfaceMember => exact nested_whole' .maplike fun a => (deep_maplikeInterfaceMember a)
  | setlikeInterfaceMember => exact nested_whole' .setlike fun a => (deep_setlikeInterfaceMember a)
  | stringifierMember => exact nested_whole' .stringifier fun a => (deep_stringifierMember a)
  | special => exact nested_part' (c := 3) .special fun a => by cases a <;> exact (Deep.tok _).mono (by simp [specialVal])
  | stringifierOrInheritOrStatic =>
    exact nested_part' (c := 3) .stringifierOrInheritOrStatic fun a => by
      cases a <;> exact (Deep.tok _).mono (by simp [stringifierOrInheritOrStaticVal])
  | stringifierOrStatic =>
    exact nested_part' (c := 3) .stringifierOrStatic fun a => by
      cases a <;> exact (Deep.tok _).mono (by simp [stringifierOrStaticVal])
  | definitions => exact (nested_whole' .definition deep_definition).vec (suff_of .definition)
  | definition => exact nested_whole' .definition deep_definition
  | callbackDefinition => exact nested_wholePayload .callback deep_definition
  | callbackInterfaceDefinition => exact nested_wholePayload .callbackInterface deep_definition
  | interfaceDefinition => exact nested_wholePayload .interface deep_definition
  | interfaceMixinDefinition => exact nested_wholePayload .interfaceMixin deep_definition
  | namespaceDefinition => exact nested_wholePayload .namespace deep_definition
  | dictionaryDefinition => exact nested_wholePayload .dictionary deep_definition
  | partialInterfaceDefinition => exact nested_wholePayload .partialInterface deep_definition
  | partialInterfaceMixinDefinition => exact nested_wholePayload .partialInterfaceMixin deep_definition
  | partialDictionaryDefinition => exact nested_wholePayload .partialDictionary deep_definition
  | partialNamespaceDefinition => exact nested_wholePayload .partialNamespace deep_definition
  | enumDefinition => exact nested_wholePayload .enum deep_definition
  | typedefDefinition => exact nested_wholePayload .typedef deep_definition
  | includesStatementDefinition =>
    exact nested_whole' (c := 16) .includes fun a => (deep_includesAlone a).mono (by have := payload_depth (definitionVal a); omega)
  | implementsDefinition =>
    exact nested_whole' (c := 16) .implements fun a => (deep_implementsAlone a).mono (by have := payload_depth (definitionVal a); omega)
  | enumValueList =>
    exact (nested_part' (c := 2) .stringLit fun a => (Deep.string a).mono (by simp)).punctuatedNonEmpty (suff_of .stringLit)
      (suff_of (.punct .comma)) comma_nest _
  | integerLit => exact nested_part' .integerLit fun a => (deep_integerLit a)
  | decLit => exact nested_part' (c := 2) .decLit fun a => (Deep.literal (fun _ h => .inl h) a).mono (by simp [decVal])
  | hexLit => exact nested_part' (c := 2) .hexLit fun a => (Deep.literal (fun _ h => .inr (.inl h)) a).mono (by simp [hexVal])
  | octLit => exact nested_part' (c := 2) .octLit fun a => (Deep.literal (fun _ h => .inr (.inr (.inl h))) a).mono (by simp [octVal])
  | stringLit => exact nested_part' (c := 2) .stringLit fun a => (Deep.string a).mono (by simp)
  | defaultValue => exact nested_part' .defaultValue fun a => (deep_defaultValue a)
  | emptyArrayLit => 
    exact ⟨2, fun s r a e => ⟨brackets_nest (p := .openBracket) (q := .closeBracket) e, by simp [emptyArrayVal]⟩⟩
  | emptyDictionaryLit => 
    exact ⟨2, fun s r a e => ⟨brackets_nest (p := .openBrace) (q := .closeBrace) e, by simp [emptyDictionaryVal]⟩⟩
  | constValue => exact nested_part' .constValue fun a => (deep_constValue a)
  | booleanLit => exact nested_part' .booleanLit fun a => (deep_booleanLit a)
  | floatLit => exact nested_part' .floatLit fun a => (deep_floatLit a)
  | floatValueLit =>
    exact nested_part' (c := 2) .floatValueLit fun a => (Deep.literal (fun _ h => .inr (.inr (.inr h))) a).mono (by simp [floatValueVal])
  | mixinMembers => exact (nested_whole' .mixinMember deep_mixinMember).vec (suff_of .mixinMember)
  | mixinMember => exact nested_whole' .mixinMember deep_mixinMember
  | operationMixinMember => exact nested_whole' .operationMixinMember fun a => (deep_operationMixinMember a)
  | attributeMixinMember => exact nested_whole' .attributeMixinMember fun a => (deep_attributeMixinMember a)
  | namespaceMembers => exact (nested_whole' .namespaceMember deep_namespaceMember).vec (suff_of .namespaceMember)
  | namespaceMember => exact nested_whole' .namespaceMember deep_namespaceMember
  | constNamespaceMember => exact nested_whole' .constMember fun a => (deep_constMember _ a)
  | operationNamespaceMember =>
    exact nested_whole' .operationNamespaceMember fun a => (deep_operationNamespaceMember a)
  | attributeNamespaceMember =>
    exact nested_whole' .attributeNamespaceMember fun a => (deep_attributeNamespaceMember a)
  | unionType =>
    exact ((Nested.call (N := .unionMember) (nested_part' .unionMemberType deep_unionMember)).punctuated (suff inferInstance)
      (suff_of (.kw .or)) (fun _ _ _ => kw_nest) _).round depth_paren (.inl rfl) (.inl rfl)
  | type => exact nested_part' .type fun a => (deep_type a)
  | singleType => exact nested_part' .singleType fun a => (deep_singleType a)
  | nonAnyType => exact nested_part' .nonAnyType fun a => (deep_nonAnyType a)
  | sequenceType => exact nested_part' (c := 7) .sequenceType fun a => ((Deep.tok _).seq (deep_type a).angles).mono (by simp; omega)
  | frozenArrayType => exact nested_part' (c := 7) .frozenArrayType fun a => ((Deep.tok _).seq (deep_type a).angles).mono (by simp; omega)
  | promiseType => exact nested_partPayload .promiseType fun a => (deep_nonAnyType a)
  | integerType => exact nested_part' .integerType fun a => (deep_integerType a)
  | longLongType => exact nested_partPayload .longLongType fun a => (deep_integerType a)
  | longType => exact nested_partPayload .longType fun a => (deep_integerType a)
  | shortType => exact nested_partPayload .shortType fun a => (deep_integerType a)
  | floatingPointType => exact nested_part' .floatingPointType fun a => (deep_floatingPointType a)
  | floatType => exact nested_partPayload .floatType fun a => (deep_floatingPointType a)
  | doubleType => exact nested_partPayload .doubleType fun a => (deep_floatingPointType a)
  | recordType =>
    exact nested_part' (c := 7) .recordType fun a => ((Deep.tok _).seq ((deep_recordKeyType a.1).seq ((Deep.tok _).seq
      (deep_type a.2))).angles).mono (by simp; omega)
  | recordKeyType => exact nested_part' .recordKeyType deep_recordKeyType
  | unionMemberType => exact nested_part' .unionMemberType deep_unionMember
  | constType => exact nested_part' .constType fun a => (deep_constType a)
  | returnType => exact nested_part' .returnType deep_returnType
  | attributedType => exact nested_part' .attributedType deep_attributedType
  | attributedNonAnyType => exact nested_partPayload .attributedNonAnyType deep_unionMember

end Verif.Depths
