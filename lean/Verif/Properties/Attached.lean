import Verif.Properties.Parts
import Verif.Properties.Kinds
import Verif.Proof.Attached

/-!
# C76: extended attributes belong to what follows them
-/

namespace Verif.Properties
open Nom Spec

private theorem list_lexes {s : Str} {as : List ExtAttr} {ls : List Str} (hl : Lexes s ls) :
    G.extAttrList.parse s = .ok [] as ↔ attributes (some as) ls := by
  have hs : attributes (some as) = attributeList as := by simp only [attributes, attributeList, extAttrs_eq]
  rw [hs, C47_text (.inl .extAttrList)]
  constructor
  · rintro ⟨t, ls', b, h1, h2, h3, h4⟩
    have : Lexes s ls' := ⟨t, b, h1, h2, good_items h4 (tidy_attributes (some as) ls' (hs ▸ h3)).1⟩
    exact lexes_unique this hl ▸ h3
  · obtain ⟨t, b, h1, h2, h3⟩ := hl
    exact fun h => ⟨t, ls, b, h1, h2, h, items_text h3⟩

private theorem items_front {inside ls : List Str} (h : ∀ w ∈ c!"[" :: (inside ++ [c!"]"]) ++ ls, Item w) :
    (∀ w ∈ c!"[" :: (inside ++ [c!"]"]), Item w) ∧ ∀ w ∈ ls, Item w :=
  ⟨fun w hw => h w (List.mem_append_left _ hw), fun w hw => h w (List.mem_append_right _ hw)⟩

/-- `withAttributes` changes the attributes and nothing else. -/
theorem C76_fields (d : Definition) (as : Attrs) : attributesOf (withAttributes as d) = as ∧ withAttributes (attributesOf d) d = d ∧
    ∀ bs, withAttributes bs (withAttributes as d) = withAttributes bs d :=
  ⟨fr_definition.set as d, fr_definition.again d, fun bs => by cases d <;> rfl⟩

/-- A list of attributes in front of a definition: the text is accepted if and only if the list is accepted by itself and the rest is
accepted by itself. The result is that of the rest, with these attributes. -/
theorem C76_definition (s : Str) (inside ls : List Str) (hl : Lexes s (c!"[" :: (inside ++ [c!"]"]) ++ ls)) (hb : Balanced inside)
    (hne : ls ≠ []) (d : Definition) :
    weedleParse s = .ok [d] ↔ ∃ as, attributesOf d = some as ∧
      G.extAttrList.parse (spaced (c!"[" :: (inside ++ [c!"]"]))) = .ok [] as ∧ weedleParse (spaced ls) = .ok [withAttributes none d] := by
  obtain ⟨h1, h2⟩ := items_front (lexes_items hl)
  rw [document_spaced hl (by simp), definitions_one, fr_definition.front hb]
  simp only [list_lexes (lexes_spaced h1), document_spaced (lexes_spaced h2) hne, definitions_one]

/-- A definition has attributes if and only if its text begins with `[`. -/
theorem C76_definition_bare (s : Str) (ls : List Str) (hl : Lexes s ls) (d : Definition) (h : weedleParse s = .ok [d]) :
    attributesOf d = none ↔ ls.head? ≠ some c!"[" := by
  exact fr_definition.none_iff (definitions_one.1 (accepted_lexes h hl))

private theorem member_lexes {α : Type} {g : G α} {L : α → Lang} (hiff : ∀ {s r a}, g.parse s = .ok r a ↔ Spells L a s r ∧ strip r = r)
    (hc : ∀ a, Closed (L a)) {a : α} {s : Str} {ls : List Str} (hl : Lexes s ls) : g.parse s = .ok [] a ↔ L a ls := by
  rw [hiff]
  constructor
  · rintro ⟨⟨t, ls', b, h1, h2, h3, h4⟩, -⟩
    have : Lexes s ls' := ⟨t, b, h1, h2, good_items (textThen_nil.2 h4) ((hc a).allGood ls' h3)⟩
    exact lexes_unique this hl ▸ h3
  · intro h
    obtain ⟨t, b, h1, h2, h3⟩ := hl
    exact ⟨⟨t, ls, b, h1, h2, h, textThen_nil.1 (items_text h3)⟩, rfl⟩

/-- What C76 says about the parser `g` of members. -/
def Attaches {α : Type} [Attributed α] (g : G α) : Prop :=
  (∀ (s : Str) (inside ls : List Str), Lexes s (c!"[" :: (inside ++ [c!"]"]) ++ ls) → Balanced inside → ∀ m : α,
    g.parse s = .ok [] m ↔ ∃ as, attributesOf m = some as ∧
      G.extAttrList.parse (spaced (c!"[" :: (inside ++ [c!"]"]))) = .ok [] as ∧ g.parse (spaced ls) = .ok [] (withAttributes none m)) ∧
  ∀ (s : Str) (ls : List Str), Lexes s ls → ∀ m : α, g.parse s = .ok [] m → (attributesOf m = none ↔ ls.head? ≠ some c!"[")

private theorem attaches {α : Type} [Attributed α] {g : G α} {L : α → Lang} (F : Fronted L)
    (hiff : ∀ {s r a}, g.parse s = .ok r a ↔ Spells L a s r ∧ strip r = r) (hc : ∀ a, Closed (L a)) : Attaches g := by
  constructor
  · intro s inside ls hl hb m
    obtain ⟨h1, h2⟩ := items_front (lexes_items hl)
    rw [member_lexes hiff hc hl, F.front hb]
    simp only [list_lexes (lexes_spaced h1), member_lexes hiff hc (lexes_spaced h2)]
  · intro s ls hl m h
    exact F.none_iff ((member_lexes hiff hc hl).1 h)

/-- The same for the members of interfaces, mixins, namespaces and dictionaries. -/
theorem C76_members : Attaches G.interfaceMember ∧ Attaches G.mixinMember ∧ Attaches G.namespaceMember ∧ Attaches G.dictionaryMember :=
  ⟨attaches fr_interfaceMember interfaceMember_iff closed_interfaceMember, attaches fr_mixinMember mixinMember_iff closed_mixinMember,
    attaches fr_namespaceMember namespaceMember_iff closed_namespaceMember,
    attaches fr_dictionaryMember dictionaryMember_iff closed_dictionaryMember⟩

example : Lexes c!"[A(long a), B=(c, d)] enum E { \"a\" };" (c!"[" :: ([c!"A", c!"(", c!"long", c!"a", c!")", c!",", c!"B", c!"=", c!"(", c!"c",
      c!",", c!"d", c!")"] ++ [c!"]"]) ++ [c!"enum", c!"E", c!"{", c!"\"a\"", c!"}", c!";"]) ∧
    ∃ d as, weedleParse c!"[A(long a), B=(c, d)] enum E { \"a\" };" = .ok [d] ∧ attributesOf d = some as ∧ as.length = 2 ∧
      weedleParse c!"enum E { \"a\" };" = .ok [withAttributes none d] :=
  ⟨lexes_sound (by decide +kernel), _, _, rfl, rfl, rfl, rfl⟩

/-- Two lists of attributes are not accepted. -/
example : weedleParse c!"[A] [B] enum E { \"a\" };" = .panic ∧ ∃ d, weedleParse c!"[A, B] enum E { \"a\" };" = .ok [d] := ⟨rfl, _, rfl⟩

example : ∃ m as, G.interfaceMember.parse c!"[A] attribute [B] long x;" = .ok [] m ∧ attributesOf m = some as ∧
    G.interfaceMember.parse c!"attribute [B] long x;" = .ok [] (withAttributes none m) :=
  ⟨_, _, rfl, rfl, rfl⟩

example : ∃ m as, G.dictionaryMember.parse c!"[A] required long x;" = .ok [] m ∧ attributesOf m = some as ∧
    G.dictionaryMember.parse c!"required long x;" = .ok [] (withAttributes none m) :=
  ⟨_, _, rfl, rfl, rfl⟩

/-- Arguments are different: the second of two lists belongs to the type, and a type can then be named `optional`. -/
example : (∃ a, (G.parenthesized G.argumentList).parse c!"([A] [B] optional x)" = .ok [] [a]) ∧
    ∀ as, (G.parenthesized G.argumentList).parse c!"([B] optional x)" ≠ .ok [] as :=
  ⟨⟨_, rfl⟩, fun _ h => nomatch h⟩

end Verif.Properties
