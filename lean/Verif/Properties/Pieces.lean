import Verif.Properties.Kinds
import Verif.Properties.Robustness
import Verif.Proof.Pieces

/-!
# C74: definitions and members end at the semicolons outside of brackets
-/

namespace Verif.Properties
open Nom Spec

private theorem not_ok {s : Str} (h : ∀ ds, weedleParse s ≠ .ok ds) : weedleParse s = .panic :=
  (C02_never_err s).elim (fun ⟨ds, h'⟩ => absurd h' (h ds)) id

/-- A text is cut behind each of its semicolons that is outside of all brackets. The text is accepted if and only if each of the pieces is
accepted by itself as a single definition, and then the result is the list of these definitions. -/
theorem C74_definitions (s : Str) (ls : List Str) (hl : Lexes s ls) (hne : ls ≠ []) (ds : List Definition) :
    weedleParse s = .ok ds ↔ OneByOne (fun p d => weedleParse (spaced p) = .ok [d]) (pieces ls) ds := by
  have key : ∀ p ∈ pieces ls, ∀ d, weedleParse (spaced p) = .ok [d] ↔ definition d p := by
    intro p hp d
    have hi := piece_items (lexes_items hl) hp
    rw [document_spaced (lexes_spaced hi) (pieces_ne hp)]
    exact definitions_one
  rw [document_spaced hl hne]
  constructor
  · intro h
    exact (pieces_concat (fun _ _ => piece_definition) h).imp fun p hp d => (key p hp d).2
  · intro h
    have := concat_pieces (h.imp fun p hp d => (key p hp d).1)
    rwa [flatten_pieces] at this

/-- A text is rejected if and only if one of its pieces is rejected by itself. -/
theorem C74_rejected (s : Str) (ls : List Str) (hl : Lexes s ls) (hne : ls ≠ []) :
    weedleParse s = .panic ↔ ∃ p ∈ pieces ls, weedleParse (spaced p) = .panic := by
  have one : ∀ p ∈ pieces ls, weedleParse (spaced p) ≠ .panic → ∃ d, weedleParse (spaced p) = .ok [d] := by
    intro p hp h
    rcases C02_never_err (spaced p) with ⟨ds, h1⟩ | h1
    · have h2 := (C74_definitions _ p (lexes_spaced (piece_items (lexes_items hl) hp)) (pieces_ne hp) ds).1 h1
      rw [pieces_piece hp] at h2
      cases h2 with
      | cons h hs => cases hs; exact ⟨_, h⟩
    · exact absurd h1 h
  constructor
  · intro h
    refine Classical.byContradiction fun hn => ?_
    have : ∀ ps : List (List Str), (∀ p ∈ ps, p ∈ pieces ls) → ∃ ds, OneByOne (fun p d => weedleParse (spaced p) = .ok [d]) ps ds := by
      intro ps
      induction ps with
      | nil => exact fun _ => ⟨[], .nil⟩
      | cons p ps ih =>
        intro hps
        obtain ⟨d, hd⟩ := one p (hps p (by simp)) fun hp => hn ⟨p, hps p (by simp), hp⟩
        obtain ⟨ds, hds⟩ := ih fun q hq => hps q (by simp [hq])
        exact ⟨d :: ds, .cons hd hds⟩
    obtain ⟨ds, hds⟩ := this (pieces ls) fun _ h => h
    rw [(C74_definitions s ls hl hne ds).2 hds] at h
    cases h
  · rintro ⟨p, hp, h⟩
    refine not_ok fun ds hds => ?_
    have h1 := (C74_definitions s ls hl hne ds).1 hds
    clear hds one
    generalize pieces ls = ps at h1 hp
    induction h1 with
    | nil => simp at hp
    | cons h2 _ ih =>
      rcases List.mem_cons.1 hp with rfl | hp
      · rw [h] at h2; cases h2
      · exact ih hp

/-- `Definitions::parse` returns the definitions of the pieces in front of the first piece that is rejected by itself, and leaves the rest
of the pieces. -/
theorem C74_prefix (s : Str) (ls : List Str) (hl : Lexes s ls) (r : Str) (ds : List Definition) (h : G.definitions.parse s = .ok r ds) :
    ∃ ps qs, pieces ls = ps ++ qs ∧ OneByOne (fun p d => weedleParse (spaced p) = .ok [d]) ps ds ∧ Lexes r qs.flatten ∧
      ∀ q qs', qs = q :: qs' → weedleParse (spaced q) = .panic := by
  obtain ⟨hc, pos, kind, hf⟩ := (C34_definitions s r ds).1 h
  clear h
  induction hc generalizing ls with
  | @nil s =>
    refine ⟨[], pieces ls, rfl, .nil, by rwa [flatten_pieces], ?_⟩
    intro q qs' e
    have hq : q ∈ pieces ls := by simp [e]
    have hi := piece_items (lexes_items hl) hq
    refine not_ok fun ds h1 => ?_
    have h2 := (C74_definitions _ q (lexes_spaced hi) (pieces_ne hq) ds).1 h1
    rw [pieces_piece hq] at h2
    cases h2 with
    | @cons _ d _ _ h2 hs =>
      rw [document_spaced (lexes_spaced hi) (pieces_ne hq), definitions_one] at h2
      have h3 := flatten_pieces ls
      rw [e, List.flatten_cons] at h3
      obtain ⟨r, h4⟩ := first_definition (h3 ▸ hl) h2
      rw [h4] at hf
      cases hf
  | @cons s m r d ds h1 _ _ ih =>
    obtain ⟨p, l, rfl, h2, h3⟩ := rest_lexes hl h1
    obtain ⟨ps, qs, h4, h5, h6⟩ := ih l h3 hf
    have h7 : pieces (p ++ l) = p :: pieces l := piece_definition h2 l
    refine ⟨p :: ps, qs, by rw [h7, h4]; rfl, .cons ?_ h5, h6⟩
    have hp : p ∈ pieces (p ++ l) := by simp [h7]
    rw [document_spaced (lexes_spaced (piece_items (lexes_items hl) hp)) (pieces_ne hp)]
    exact definitions_one.2 h2

/-- The text between the braces of a definition is cut in the same way. The definition is accepted if and only if it is accepted with
nothing between its braces and each of the pieces is accepted by itself as a single member of the kind that the definition has. -/
theorem C74_members (s : Str) (start inside : List Str) (hl : Lexes s (start ++ c!"{" :: (inside ++ [c!"}", c!";"])))
    (hb : Balanced inside) (d d' : Definition) (hd : withoutMembers d = some d') :
    weedleParse s = .ok [d] ↔
      weedleParse (spaced (start ++ [c!"{", c!"}", c!";"])) = .ok [d'] ∧ MembersAre (pieces inside) d := by
  have hi := lexes_items hl
  have hi' : ∀ w ∈ start ++ [c!"{", c!"}", c!";"], Item w := fun w hw => hi w (by simp at hw ⊢; rcases hw with h | h | h | h <;> simp [h])
  have hm : ∀ w ∈ inside, Item w := fun w hw => hi w (by simp [hw])
  obtain ⟨-, e1, e2, e3⟩ := definition_body hd
  rw [document_spaced hl (by simp), document_spaced (lexes_spaced hi') (by simp), definitions_one, definitions_one, membersAre_iff hd hm,
    mem_body hd, mem_body e3, e1, e2]
  constructor
  · rintro ⟨a, m, e, h1, h2⟩
    obtain ⟨rfl, rfl⟩ := body_unique_end hb (bal_inner d m h2) e
    exact ⟨⟨start, [], rfl, h1, rfl⟩, h2⟩
  · rintro ⟨⟨a, m, e, h1, rfl⟩, h2⟩
    exact ⟨start, inside, rfl, by rwa [(body_unique_end (m := []) .nil .nil e).1], h2⟩

/-- A text with two definitions, the first one with two members. -/
private def two : Str := c!"[A] interface I { void f(optional long x = 1); attribute DOMString y; }; typedef sequence<long> T;"

private def twoItems : List Str :=
  [c!"[", c!"A", c!"]", c!"interface", c!"I", c!"{", c!"void", c!"f", c!"(", c!"optional", c!"long", c!"x", c!"=", c!"1", c!")", c!";",
    c!"attribute", c!"DOMString", c!"y", c!";", c!"}", c!";", c!"typedef", c!"sequence", c!"<", c!"long", c!">", c!"T", c!";"]

example : Lexes two twoItems ∧ twoItems ≠ [] ∧ pieces twoItems = [twoItems.take 22, twoItems.drop 22] ∧
    ∃ d e, weedleParse two = .ok [d, e] ∧ weedleParse (spaced (twoItems.take 22)) = .ok [d] ∧
      weedleParse (spaced (twoItems.drop 22)) = .ok [e] :=
  ⟨lexes_sound (by decide +kernel), by decide, by decide +kernel, _, _, rfl, rfl, rfl⟩

private theorem balanced_inside : Balanced ((twoItems.drop 6).take 14) :=
  .item (by decide +kernel) <| .item (by decide +kernel) <|
    .group (o := c!"(") (c := c!")") (ls := [c!"optional", c!"long", c!"x", c!"=", c!"1"]) (by decide +kernel)
      (.item (by decide +kernel) <| .item (by decide +kernel) <| .item (by decide +kernel) <| .item (by decide +kernel) <|
        .item (by decide +kernel) .nil)
      (.item (by decide +kernel) <| .item (by decide +kernel) <| .item (by decide +kernel) <| .item (by decide +kernel) <|
        .item (by decide +kernel) .nil)

/-- One of its pieces, and the pieces between the braces. -/
example : ∃ s d d', Lexes s (twoItems.take 5 ++ c!"{" :: ((twoItems.drop 6).take 14 ++ [c!"}", c!";"])) ∧
    Balanced ((twoItems.drop 6).take 14) ∧ withoutMembers d = some d' ∧ weedleParse s = .ok [d] ∧
    pieces ((twoItems.drop 6).take 14) = [(twoItems.drop 6).take 10, (twoItems.drop 16).take 4] :=
  ⟨c!"[A] interface I { void f(optional long x = 1); attribute DOMString y; };", _, _, lexes_sound (by decide +kernel),
    balanced_inside, rfl, rfl, by decide +kernel⟩

/-- A text whose second piece is rejected. -/
private def wrong : List Str := [c!"A", c!"includes", c!"B", c!";", c!"C", c!"includes", c!";", c!"D", c!"includes", c!"E", c!";"]

example : Lexes c!"A includes B; C includes; D includes E;" wrong ∧ pieces wrong = [wrong.take 4, (wrong.drop 4).take 3, wrong.drop 7] ∧
    weedleParse (spaced ((wrong.drop 4).take 3)) = .panic ∧ G.definitions.parse c!"A includes B; C includes; D includes E;" =
      .ok c!"C includes; D includes E;" [.includesStatement none c!"A" c!"B"] :=
  ⟨lexes_sound (by decide +kernel), by decide +kernel, rfl, rfl⟩

end Verif.Properties
