import Verif.Properties.Parts
import Verif.Properties.Kinds
import Verif.Proof.Enum
import Verif.Proof.Lists

/-!
# C75: lists are cut at the commas outside of brackets
-/

namespace Verif.Properties
open Nom Spec

private theorem part_lexes {α : Type} {g : G α} {L : α → Lang} (h : PartOf g L) {a : α} (hg : Tidy (L a)) {s : Str} {ls : List Str}
    (hl : Lexes s ls) : g.parse s = .ok [] a ↔ L a ls := by
  rw [C47_text (.inl h)]
  constructor
  · rintro ⟨t, ls', b, h1, h2, h3, h4⟩
    have : Lexes s ls' := ⟨t, b, h1, h2, good_items h4 (hg ls' h3).1⟩
    exact lexes_unique this hl ▸ h3
  · obtain ⟨t, b, h1, h2, h3⟩ := hl
    exact fun h => ⟨t, ls, b, h1, h2, h, items_text h3⟩

private theorem mid_iff {A : Lang} {o c : Str} {ls : List Str} : (tok o ⨾ A ⨾ tok c) (o :: (ls ++ [c])) ↔ A ls := by
  constructor
  · rintro ⟨_, _, e, rfl, x, _, rfl, h, rfl⟩
    have e : ls ++ [c] = x ++ [c] := by simpa using e
    exact List.append_cancel_right e ▸ h
  · intro h
    exact ⟨[o], _, rfl, rfl, ls, _, rfl, h, rfl⟩

private theorem spell_ne {α : Type} {g : G α} {L : α → Lang} (h : PartOf g L) (hn : ∀ a, g.parse [] ≠ .ok [] a) (a : α) : ¬ L a [] :=
  fun ha => hn a ((C47_text (.inl h) [] a).2 ⟨[], [], [], rfl, .nil, ha, text_spaced []⟩)

private theorem items_mid {o c : Str} {ls p : List Str} (h : ∀ w ∈ o :: (ls ++ [c]), Item w) (hp : p ∈ parts ls) :
    ∀ w ∈ o :: (p ++ [c]), Item w := by
  have := parts_items (fun w hw => h w (by simp [hw])) hp
  intro w hw
  simp only [List.mem_cons, List.mem_append, List.not_mem_nil, or_false] at hw
  rcases hw with rfl | hw | rfl
  · exact h _ (by simp)
  · exact this w hw
  · exact h _ (by simp)

/-- What is between the parentheses of an argument list is cut at each comma that is outside of all brackets. The list is accepted if and
only if each of the parts is accepted between parentheses as a list of one argument, and then the result is the list of these arguments. -/
theorem C75_arguments (s : Str) (ls : List Str) (hl : Lexes s (c!"(" :: (ls ++ [c!")"]))) (as : List Argument) :
    (G.parenthesized G.argumentList).parse s = .ok [] as ↔
      OneByOne (fun p a => (G.parenthesized G.argumentList).parse (spaced (c!"(" :: (p ++ [c!")"]))) = .ok [] [a]) (parts ls) as := by
  have key : ∀ p ∈ parts ls, ∀ a, (G.parenthesized G.argumentList).parse (spaced (c!"(" :: (p ++ [c!")"]))) = .ok [] [a] ↔ argument a p := by
    intro p hp a
    rw [part_lexes .argumentList (tidy_argumentList _) (lexes_spaced (items_mid (lexes_items hl) hp))]
    exact mid_iff
  rw [part_lexes .argumentList (tidy_argumentList _) hl, OneByOne.iff key, ← parts_sepBy bare_argument (spell_ne .argument (by intro a h; cases h)), ← arguments_eq]
  exact mid_iff

/-- The same for the list of extended attributes. -/
theorem C75_attributes (s : Str) (ls : List Str) (hl : Lexes s (c!"[" :: (ls ++ [c!"]"]))) (as : List ExtAttr) :
    G.extAttrList.parse s = .ok [] as ↔
      OneByOne (fun p a => G.extAttrList.parse (spaced (c!"[" :: (p ++ [c!"]"]))) = .ok [] [a]) (parts ls) as := by
  have ht : ∀ as, Tidy (attributeList as) := fun as => by
    have := tidy_attributes (some as)
    simp only [attributes, extAttrs_eq] at this
    exact this
  have key : ∀ p ∈ parts ls, ∀ a, G.extAttrList.parse (spaced (c!"[" :: (p ++ [c!"]"]))) = .ok [] [a] ↔ extAttr a p := by
    intro p hp a
    rw [part_lexes .extAttrList (ht _) (lexes_spaced (items_mid (lexes_items hl) hp))]
    exact mid_iff
  rw [part_lexes .extAttrList (ht _) hl, OneByOne.iff key, ← parts_sepBy bare_extAttr (spell_ne .extAttr (by intro a h; cases h))]
  exact mid_iff

/-- The same for the identifiers of an extended attribute with a list of identifiers. -/
theorem C75_identifiers (s : Str) (x : Str) (ls : List Str) (hl : Lexes s (x :: c!"=" :: c!"(" :: (ls ++ [c!")"]))) (i : Str) (is : List Str) :
    G.extAttrIdentList.parse s = .ok [] (.identList i is) ↔
      G.ident.parse (spaced [x]) = .ok [] i ∧ OneByOne (fun p j => G.ident.parse (spaced p) = .ok [] j) (parts ls) is := by
  have hi := lexes_items hl
  have hls : ∀ w ∈ ls, Item w := fun w hw => hi w (by simp [hw])
  have key : ∀ p ∈ parts ls, ∀ j, G.ident.parse (spaced p) = .ok [] j ↔ name j p := fun p hp j =>
    part_lexes .ident (.name j) (lexes_spaced (parts_items hls hp))
  have ht : Tidy (only (attrKind · = .identList) extAttr (.identList i is)) := fun ls h => tidy_extAttr _ ls h.2
  rw [part_lexes .extAttrIdentList ht hl, OneByOne.iff key, part_lexes .ident (.name i) (lexes_spaced (by simpa using hi x (by simp))),
    ← parts_sepBy .name (spell_ne .ident (by intro a h; cases h))]
  simp only [only, extAttr]
  constructor
  · rintro ⟨-, a, _, e, h1, b, _, rfl, rfl, h2⟩
    obtain ⟨w, rfl⟩ : ∃ w, a = [w] := by
      rcases h1.2 with h | h <;> exact ⟨_, h⟩
    simp only [List.cons_append, List.nil_append, List.cons.injEq, true_and] at e
    obtain ⟨rfl, rfl⟩ := e
    exact ⟨h1, mid_iff.1 h2⟩
  · rintro ⟨h1, h2⟩
    exact ⟨rfl, [x], _, rfl, h1, [c!"="], _, rfl, rfl, mid_iff.2 h2⟩

private theorem enum_body {as : Attrs} {i : Str} {vs ls : List Str} : definition (.enum as i vs) ls ↔
    ∃ a m, ls = a ++ c!"{" :: (m ++ [c!"}", c!";"]) ∧ (attributes as ⨾ tok c!"enum" ⨾ name i) a ∧ enumValues vs m := by
  have : definition (.enum as i vs) = ((attributes as ⨾ tok c!"enum" ⨾ name i) ⨾ (tok c!"{" ⨾ enumValues vs ⨾ tok c!"}") ⨾ tok c!";") := by
    simp only [definition, braces, seq_assoc]
  rw [this]
  constructor
  · rintro ⟨a, _, rfl, h1, _, _, rfl, ⟨_, _, rfl, rfl, m, _, rfl, h2, rfl⟩, rfl⟩
    exact ⟨a, m, by simp, h1, h2⟩
  · rintro ⟨a, m, rfl, h1, h2⟩
    exact ⟨a, _, rfl, h1, c!"{" :: (m ++ [c!"}"]), [c!";"], by simp, ⟨[c!"{"], _, rfl, rfl, m, _, rfl, h2, rfl⟩, rfl⟩

private theorem bal_enumValues (vs : List Str) : AllBalanced (enumValues vs) := by
  rintro ls ⟨-, c, h⟩
  exact AllBalanced.seq (.sepBy bal_comma fun v _ => .string v) (.opt c plain_comma) ls h

private theorem values_iff {vs ls : List Str} (hv : vs ≠ []) : enumValues vs ls ↔ sepBy comma (vs.map string) (withoutLast ls) := by
  have h0 : ∀ {l : List Str}, sepBy comma (vs.map string) l → l.getLast? ≠ some c!"," := by
    intro l h e
    cases vs with
    | nil => exact hv rfl
    | cons v vs =>
      obtain ⟨l, v', rfl⟩ := values_last h
      simp at e
  constructor
  · rintro ⟨-, c, a, b, rfl, h1, h2⟩
    cases c with
    | false =>
      cases h2
      rw [List.append_nil, withoutLast, if_neg (h0 h1)]
      exact h1
    | true =>
      cases h2
      simpa [withoutLast] using h1
  · intro h
    unfold withoutLast at h
    split at h
    · next e =>
      refine ⟨hv, true, ls.dropLast, [c!","], ?_, h, rfl⟩
      obtain ⟨l, rfl⟩ := List.getLast?_eq_some_iff.1 e
      simp
    · exact ⟨hv, false, ls, [], by simp, h, rfl⟩

/-- The same for the values of an enumeration, where a comma that comes last does not count and there has to be a value. -/
theorem C75_values (s : Str) (start ls : List Str) (hl : Lexes s (start ++ c!"{" :: (ls ++ [c!"}", c!";"]))) (hb : Balanced ls)
    (as : Attrs) (i : Str) (vs : List Str) :
    weedleParse s = .ok [.enum as i vs] ↔
      weedleParse (spaced (start ++ [c!"{", c!"\"\"", c!"}", c!";"])) = .ok [.enum as i [[]]] ∧ vs ≠ [] ∧
        OneByOne (fun p v => G.stringLit.parse (spaced p) = .ok [] v) (parts (withoutLast ls)) vs := by
  have hi := lexes_items hl
  have hls : ∀ w ∈ withoutLast ls, Item w := by
    intro w hw
    refine hi w ?_
    unfold withoutLast at hw
    have : w ∈ ls := by
      split at hw
      · exact List.dropLast_subset _ hw
      · exact hw
    simp [this]
  have hi' : ∀ w ∈ start ++ [c!"{", c!"\"\"", c!"}", c!";"], Item w := by
    intro w hw
    simp only [List.mem_append, List.mem_cons, List.not_mem_nil, or_false] at hw
    rcases hw with h | rfl | rfl | rfl | rfl
    · exact hi w (by simp [h])
    · exact hi _ (by simp)
    · exact lexes_items (s := c!"\"\"") (ls := [c!"\"\""]) (lexes_sound (by decide +kernel)) _ (by simp)
    · exact hi _ (by simp)
    · exact hi _ (by simp)
  have key : ∀ p ∈ parts (withoutLast ls), ∀ v, G.stringLit.parse (spaced p) = .ok [] v ↔ string v p := fun p hp v =>
    part_lexes .stringLit (.string v) (lexes_spaced (parts_items hls hp))
  rw [document_spaced hl (by simp), document_spaced (lexes_spaced hi') (by simp), definitions_one, definitions_one, OneByOne.iff key,
    ← parts_sepBy .string (spell_ne .stringLit (by intro a h; cases h)), enum_body, enum_body]
  constructor
  · rintro ⟨a, m, e, h1, h2⟩
    obtain ⟨rfl, rfl⟩ := body_unique_end hb (bal_enumValues vs m h2) e
    exact ⟨⟨start, _, rfl, h1, by simp, false, [c!"\"\""], [], rfl, ⟨by simp, rfl⟩, rfl⟩, h2.1, (values_iff h2.1).1 h2⟩
  · rintro ⟨⟨a, m, e, h1, h3⟩, h2, h4⟩
    have e' : start ++ c!"{" :: ([c!"\"\""] ++ [c!"}", c!";"]) = a ++ c!"{" :: (m ++ [c!"}", c!";"]) := e
    obtain ⟨rfl, -⟩ := body_unique_end (isPlain_balanced (by decide)) (bal_enumValues _ m h3) e'
    exact ⟨start, ls, rfl, h1, (values_iff h2).2 h4⟩

/-- What is between the parentheses of a union is cut at each `or` that is outside of all brackets and does not begin a type. The union is
accepted if and only if each of the parts is accepted by itself as a member of a union. -/
theorem C75_union (s : Str) (ls : List Str) (hl : Lexes s (c!"(" :: (ls ++ [c!")"]))) (ms : List UnionMember) :
    G.unionType.parse s = .ok [] ms ↔ OneByOne (fun p m => G.unionMemberType.parse (spaced p) = .ok [] m) (alternatives ls) ms := by
  have ht : Tidy (unionPart ms) := .parens (.sepBy (.kw .or) (by rw [← unionMembers_eq]; exact tidy_unionMembers ms))
  have hls : ∀ w ∈ ls, Item w := fun w hw => lexes_items hl w (by simp [hw])
  have key : ∀ p ∈ alternatives ls, ∀ m, G.unionMemberType.parse (spaced p) = .ok [] m ↔ unionMember m p := fun p hp m =>
    part_lexes .unionMemberType (tidy_unionMember m) (lexes_spaced (alternatives_items hls hp))
  rw [part_lexes .unionType ht hl, OneByOne.iff key, ← alternatives_sepBy goes_unionMember (spell_ne .unionMemberType (by intro a h; cases h))]
  exact mid_iff

/-- A type can be named like the separator. -/
example : Lexes c!"([A] or or (long or B)? or or)" (c!"(" :: ([c!"[", c!"A", c!"]", c!"or", c!"or", c!"(", c!"long", c!"or", c!"B", c!")", c!"?",
      c!"or", c!"or"] ++ [c!")"])) ∧
    alternatives [c!"[", c!"A", c!"]", c!"or", c!"or", c!"(", c!"long", c!"or", c!"B", c!")", c!"?", c!"or", c!"or"] =
      [[c!"[", c!"A", c!"]", c!"or"], [c!"(", c!"long", c!"or", c!"B", c!")", c!"?"], [c!"or"]] ∧
    ∃ a b c, G.unionType.parse c!"([A] or or (long or B)? or or)" = .ok [] [a, b, c] :=
  ⟨lexes_sound (by decide +kernel), by decide +kernel, _, _, _, rfl⟩

/-- Three arguments, with commas in a type, in an attribute and in a string. -/
private def args : List Str :=
  [c!"record", c!"<", c!"DOMString", c!",", c!"long", c!">", c!"a", c!",", c!"[", c!"A", c!"=", c!"(", c!"b", c!",", c!"c", c!")", c!"]",
    c!"long", c!"d", c!",", c!"optional", c!"DOMString", c!"e", c!"=", c!"\",\""]

private def argsText : Str := c!"(record<DOMString,long> a,[A=(b,c)]long d,optional DOMString e=\",\")"

example : Lexes argsText (c!"(" :: (args ++ [c!")"])) ∧ parts args = [args.take 7, (args.drop 8).take 11, args.drop 20] ∧
    ∃ a b c, (G.parenthesized G.argumentList).parse argsText = .ok [] [a, b, c] :=
  ⟨lexes_sound (by decide +kernel), by decide +kernel, _, _, _, rfl⟩

example : Lexes c!"[A(long a,long b),B=(c,d),E]" (c!"[" :: ([c!"A", c!"(", c!"long", c!"a", c!",", c!"long", c!"b", c!")", c!",", c!"B", c!"=",
      c!"(", c!"c", c!",", c!"d", c!")", c!",", c!"E"] ++ [c!"]"])) ∧
    ∃ a b c, G.extAttrList.parse c!"[A(long a,long b),B=(c,d),E]" = .ok [] [a, b, c] :=
  ⟨lexes_sound (by decide +kernel), _, _, _, rfl⟩

example : Lexes c!"A=(b,_c)" (c!"A" :: c!"=" :: c!"(" :: ([c!"b", c!",", c!"_c"] ++ [c!")"])) ∧
    G.extAttrIdentList.parse c!"A=(b,_c)" = .ok [] (.identList c!"A" [c!"b", c!"c"]) :=
  ⟨lexes_sound (by decide +kernel), rfl⟩

example : Lexes c!"enum E { \"a\", \"b,c\", };" ([c!"enum", c!"E"] ++ c!"{" :: ([c!"\"a\"", c!",", c!"\"b,c\"", c!","] ++ [c!"}", c!";"])) ∧
    Balanced [c!"\"a\"", c!",", c!"\"b,c\"", c!","] ∧ weedleParse c!"enum E { \"a\", \"b,c\", };" = .ok [.enum none c!"E" [c!"a", c!"b,c"]] :=
  ⟨lexes_sound (by decide +kernel), .item (by decide) (.item (by decide) (.item (by decide) (.item (by decide) .nil))), rfl⟩

/-- Only one comma can come last, and only after a value. -/
example : parts (withoutLast [c!"\"a\"", c!",", c!","]) = [[c!"\"a\""], []] ∧ parts (withoutLast [c!","]) = [] := by decide

end Verif.Properties
