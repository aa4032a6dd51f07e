import Verif.Properties.Lists
import Verif.Properties.Pieces
import Verif.Proof.Rearrange

/-!
# C78: definitions, members and elements of lists can be left out, repeated and brought into another order
-/

namespace Verif.Properties
open Nom Spec

/-- The definitions of an accepted text can be left out, repeated and brought into another order; the result changes in the same way. -/
theorem C78_definitions (s s' : Str) (ls : List Str) (hl : Lexes s ls) (ds : List Definition) (hs : weedleParse s = .ok ds) (js : List Nat)
    (hl' : Lexes s' (select js (pieces ls)).flatten) (hj : select js ds ≠ []) : weedleParse s' = .ok (select js ds) := by
  have hne : ls ≠ [] := by
    rintro rfl
    have : ds = [] := by
      have h := accepted_lexes hs hl
      cases ds with
      | nil => rfl
      | cons d ds =>
        obtain ⟨x, y, e, h1, -⟩ := h
        obtain ⟨rfl, rfl⟩ := List.append_eq_nil_iff.1 e.symm
        obtain ⟨a, e⟩ := semi_definition d _ h1
        simp at e
    subst this
    exact hj (by simp [select])
  have h := (document_spaced hl hne).1 hs
  have h' : definitions (select js ds) (select js (pieces ls)).flatten := concat_select (fun _ _ => piece_definition) h js
  refine (document_spaced hl' ?_).2 h'
  intro e
  rw [e] at h'
  generalize select js ds = ds' at hj h'
  cases ds' with
  | nil => exact hj rfl
  | cons d ds =>
    obtain ⟨x, y, e, h1, -⟩ := h'
    obtain ⟨rfl, rfl⟩ := List.append_eq_nil_iff.1 e.symm
    obtain ⟨a, e⟩ := semi_definition d _ h1
    simp at e

/-- The same for the members of a definition. -/
theorem C78_members (s s' : Str) (start inside : List Str) (hl : Lexes s (start ++ c!"{" :: (inside ++ [c!"}", c!";"]))) (hb : Balanced inside)
    (d : Definition) (hd : (withoutMembers d).isSome) (hs : weedleParse s = .ok [d]) (js : List Nat)
    (hl' : Lexes s' (start ++ c!"{" :: ((select js (pieces inside)).flatten ++ [c!"}", c!";"]))) :
    weedleParse s' = .ok [selectMembers js d] := by
  obtain ⟨d', hd⟩ := Option.isSome_iff_exists.1 hd
  rw [document_spaced hl (by simp), definitions_one, mem_body hd] at hs
  obtain ⟨a, m, e, h1, h2⟩ := hs
  obtain ⟨rfl, rfl⟩ := body_unique_end hb (bal_inner d m h2) e
  obtain ⟨e1, e2⟩ := select_head hd js
  rw [document_spaced hl' (by simp), definitions_one, mem_body e2, e1]
  exact ⟨start, _, rfl, h1, inner_select hd h2 js⟩

private theorem part_lexes {α : Type} {g : G α} {L : α → Lang} (h : PartOf g L) {a : α} (hg : Tidy (L a)) {s : Str} {ls : List Str}
    (hl : Lexes s ls) : g.parse s = .ok [] a ↔ L a ls := by
  rw [C47_text (.inl h)]
  constructor
  · rintro ⟨t, ls', b, h1, h2, h3, h4⟩
    have : Lexes s ls' := ⟨t, b, h1, h2, good_items h4 (hg ls' h3).1⟩
    exact lexes_unique this hl ▸ h3
  · obtain ⟨t, b, h1, h2, h3⟩ := hl
    exact fun h => ⟨t, ls, b, h1, h2, h, items_text h3⟩

private theorem mid_iff {A : Lang} {o c : Str} {ls : List Str} : (tok o ⨾ A ⨾ tok c) (o :: (ls ++ [c])) ↔ A ls := by
  constructor
  · rintro ⟨_, _, e, rfl, x, _, rfl, h, rfl⟩
    have e : ls ++ [c] = x ++ [c] := by simpa using e
    exact List.append_cancel_right e ▸ h
  · intro h
    exact ⟨[o], _, rfl, rfl, ls, _, rfl, h, rfl⟩

private theorem spell_ne {α : Type} {g : G α} {L : α → Lang} (h : PartOf g L) (hn : ∀ a, g.parse [] ≠ .ok [] a) (a : α) : ¬ L a [] :=
  fun ha => hn a ((C47_text (.inl h) [] a).2 ⟨[], [], [], rfl, .nil, ha, text_spaced []⟩)

private theorem sepBy_select {α : Type} {L : α → Lang} (hL : ∀ a, Bare (L a)) (hn : ∀ a, ¬ L a []) {as : List α} {ls : List Str}
    (h : sepBy comma (as.map L) ls) (js : List Nat) : sepBy comma ((select js as).map L) (joinWith c!"," (select js (parts ls))) := by
  rw [← joined_joinWith]
  exact sepBy_joined (((parts_sepBy hL hn).1 h).select js)

/-- The same for the arguments between parentheses, … -/
theorem C78_arguments (s s' : Str) (ls : List Str) (hl : Lexes s (c!"(" :: (ls ++ [c!")"]))) (as : List Argument)
    (hs : (G.parenthesized G.argumentList).parse s = .ok [] as) (js : List Nat)
    (hl' : Lexes s' (c!"(" :: (joinWith c!"," (select js (parts ls)) ++ [c!")"]))) :
    (G.parenthesized G.argumentList).parse s' = .ok [] (select js as) := by
  rw [part_lexes .argumentList (tidy_argumentList _) hl] at hs
  rw [part_lexes .argumentList (tidy_argumentList _) hl']
  refine mid_iff.2 ?_
  have := mid_iff.1 hs
  rw [arguments_eq] at this ⊢
  exact sepBy_select bare_argument (spell_ne .argument (by intro a h; cases h)) this js

/-- … for the extended attributes between brackets, … -/
theorem C78_attributes (s s' : Str) (ls : List Str) (hl : Lexes s (c!"[" :: (ls ++ [c!"]"]))) (as : List ExtAttr)
    (hs : G.extAttrList.parse s = .ok [] as) (js : List Nat)
    (hl' : Lexes s' (c!"[" :: (joinWith c!"," (select js (parts ls)) ++ [c!"]"]))) :
    G.extAttrList.parse s' = .ok [] (select js as) := by
  have ht : ∀ as, Tidy (attributeList as) := fun as => by
    have := tidy_attributes (some as)
    simp only [attributes, extAttrs_eq] at this
    exact this
  rw [part_lexes .extAttrList (ht _) hl] at hs
  rw [part_lexes .extAttrList (ht _) hl']
  exact mid_iff.2 (sepBy_select bare_extAttr (spell_ne .extAttr (by intro a h; cases h)) (mid_iff.1 hs) js)

/-- … for the members of a union … -/
theorem C78_union (s s' : Str) (ls : List Str) (hl : Lexes s (c!"(" :: (ls ++ [c!")"]))) (ms : List UnionMember)
    (hs : G.unionType.parse s = .ok [] ms) (js : List Nat)
    (hl' : Lexes s' (c!"(" :: (joinWith c!"or" (select js (alternatives ls)) ++ [c!")"]))) :
    G.unionType.parse s' = .ok [] (select js ms) := by
  have ht (ms) : Tidy (unionPart ms) := .parens (.sepBy (.kw .or) (by rw [← unionMembers_eq]; exact tidy_unionMembers ms))
  rw [part_lexes .unionType (ht _) hl] at hs
  rw [part_lexes .unionType (ht _) hl']
  refine mid_iff.2 ?_
  have := (alternatives_sepBy goes_unionMember (spell_ne .unionMemberType (by intro a h; cases h))).1 (mid_iff.1 hs)
  rw [← orJoined_joinWith]
  exact sepBy_orJoined (this.select js)

/-- … and for the values of an enumeration, if a value remains. -/
theorem C78_values (s s' : Str) (start ls : List Str) (hl : Lexes s (start ++ c!"{" :: (ls ++ [c!"}", c!";"]))) (hb : Balanced ls)
    (as : Attrs) (i : Str) (vs : List Str) (hs : weedleParse s = .ok [.enum as i vs]) (js : List Nat) (hj : select js vs ≠ [])
    (hl' : Lexes s' (start ++ c!"{" :: (joinWith c!"," (select js (parts (withoutLast ls))) ++ [c!"}", c!";"]))) :
    weedleParse s' = .ok [.enum as i (select js vs)] := by
  obtain ⟨h1, h2, h3⟩ := (C75_values s start ls hl hb as i vs).1 hs
  have hi : ∀ w ∈ withoutLast ls, Item w := by
    intro w hw
    have : w ∈ ls := by
      unfold withoutLast at hw
      split at hw
      · exact List.dropLast_subset _ hw
      · exact hw
    exact lexes_items hl w (by simp [this])
  have key {ls : List Str} (hi : ∀ w ∈ ls, Item w) (p) (hp : p ∈ parts ls) (v) : G.stringLit.parse (spaced p) = .ok [] v ↔ string v p :=
    part_lexes .stringLit (.string v) (lexes_spaced (parts_items hi hp))
  have h4 := sepBy_joined (((OneByOne.iff (key hi)).1 h3).select js)
  rw [joined_joinWith] at h4
  have h5 : withoutLast (joinWith c!"," (select js (parts (withoutLast ls)))) = joinWith c!"," (select js (parts (withoutLast ls))) := by
    unfold withoutLast
    refine if_neg fun e => ?_
    obtain ⟨v, vs', hv⟩ := List.exists_cons_of_ne_nil hj
    rw [hv] at h4
    obtain ⟨l, v', e'⟩ := values_last h4
    rw [show withoutLast ls = (if ls.getLast? = some c!"," then ls.dropLast else ls) from rfl] at e'
    rw [e'] at e
    simp at e
  refine (C75_values s' start _ hl' (AllBalanced.sepBy bal_comma (fun v _ => .string v) _ h4) as i _).2 ⟨h1, hj, ?_⟩
  rw [h5, OneByOne.iff (key fun w hw => lexes_items hl' w (by simp [hw])), ← parts_sepBy .string (spell_ne .stringLit (by intro a h; cases h))]
  exact h4

/-! ### Cases of the theorems -/

private def three : List Str := [c!"A", c!"includes", c!"B", c!";", c!"enum", c!"E", c!"{", c!"\"v\"", c!"}", c!";", c!"typedef", c!"long", c!"T", c!";"]

/-- The last definition, twice, then the first one. -/
example : ∃ a b c, weedleParse c!"A includes B; enum E { \"v\" }; typedef long T;" = .ok [a, b, c] ∧
    weedleParse c!"typedef long T; typedef long T; A includes B;" = .ok [c, c, a] :=
  ⟨_, _, _, rfl, C78_definitions _ c!"typedef long T; typedef long T; A includes B;" three
    (lexes_sound (s := c!"A includes B; enum E { \"v\" }; typedef long T;") (by decide +kernel)) _ rfl [2, 2, 0]
    (lexes_sound (by decide +kernel)) (by simp [select])⟩

private def body : List Str := [c!"void", c!"f", c!"(", c!")", c!";", c!"attribute", c!"long", c!"y", c!";"]

private theorem balanced_body : Balanced body :=
  .item (by decide +kernel) <| .item (by decide +kernel) <|
    .group (o := c!"(") (c := c!")") (ls := []) (by decide +kernel) .nil
      (.item (by decide +kernel) <| .item (by decide +kernel) <| .item (by decide +kernel) <| .item (by decide +kernel) <|
        .item (by decide +kernel) .nil)

example : ∃ a b, weedleParse c!"interface I { void f(); attribute long y; };" = .ok [.interface none c!"I" none [a, b]] ∧
    weedleParse c!"interface I { attribute long y; void f(); };" = .ok [.interface none c!"I" none [b, a]] :=
  ⟨_, _, rfl, C78_members c!"interface I { void f(); attribute long y; };" _ [c!"interface", c!"I"] body (lexes_sound (by decide +kernel))
    balanced_body _ rfl rfl [1, 0] (lexes_sound (by decide +kernel))⟩

example : ∃ a b, (G.parenthesized G.argumentList).parse c!"(record<A, B> a, optional C c)" = .ok [] [a, b] ∧
    (G.parenthesized G.argumentList).parse c!"(optional C c, record<A, B> a)" = .ok [] [b, a] :=
  ⟨_, _, rfl, C78_arguments c!"(record<A, B> a, optional C c)" _ [c!"record", c!"<", c!"A", c!",", c!"B", c!">", c!"a", c!",", c!"optional", c!"C", c!"c"]
    (lexes_sound (by decide +kernel)) _ rfl [1, 0] (lexes_sound (by decide +kernel))⟩

example : G.extAttrList.parse c!"[B=(c, d)]" = .ok [] [.identList c!"B" [c!"c", c!"d"]] :=
  C78_attributes c!"[A, B=(c, d)]" _ [c!"A", c!",", c!"B", c!"=", c!"(", c!"c", c!",", c!"d", c!")"] (lexes_sound (by decide +kernel))
    _ rfl [1] (lexes_sound (by decide +kernel))

/-- The union of one type is accepted as well. -/
example : ∃ a b, G.unionType.parse c!"(long or sequence<A>)" = .ok [] [a, b] ∧ G.unionType.parse c!"(sequence<A>)" = .ok [] [b] :=
  ⟨_, _, rfl, C78_union c!"(long or sequence<A>)" _ [c!"long", c!"or", c!"sequence", c!"<", c!"A", c!">"] (lexes_sound (by decide +kernel))
    _ rfl [1] (lexes_sound (by decide +kernel))⟩

example : weedleParse c!"enum E { \"b,c\", \"a\" };" = .ok [.enum none c!"E" [c!"b,c", c!"a"]] :=
  C78_values c!"enum E { \"a\", \"b,c\", };" _ [c!"enum", c!"E"] [c!"\"a\"", c!",", c!"\"b,c\"", c!","] (lexes_sound (by decide +kernel))
    (.item (by decide) (.item (by decide) (.item (by decide) (.item (by decide) .nil)))) _ _ [c!"a", c!"b,c"] rfl [1, 0] (by simp [select])
    (lexes_sound (by decide +kernel))

end Verif.Properties
