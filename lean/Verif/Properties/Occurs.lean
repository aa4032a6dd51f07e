import Verif.Source.Found
import Verif.Properties.Legal
import Verif.Properties.Typing

/-!
# C82: what occurs in documents

`Part u v` (`Verif/Source/Traced.lean`): `u` occurs in `v`.
-/

namespace Verif.Properties
open Nom Source Spec

/-- The value occurs in the result of `weedle::parse` on some text. -/
private def Occurs (v : Val) : Prop := ∃ t defs, weedleParse t = .ok defs ∧ Source.Part v (.list (defs.map definitionVal))

private theorem occurs_found {v : Val} (h : Exact.Found v) : Occurs v := by
  obtain ⟨d, w, p⟩ := h
  exact ⟨_, [d], C21_round_trip [d] (by simpa [Wf] using w), .list (by simp) p⟩

/-- Whatever the parser of a type without parameters returns, on any text, occurs in the result of `weedle::parse` on some text. Four types of
tokens are excepted. -/
theorem C82_occurs {ds : List Decl} (hd : readSource = some ds) {x : Str} (hx : WellFormed ds (.path0 x))
    (hu : x ∉ [c!"Minus", c!"Dot", c!"True", c!"False"]) {s r : Str} {v : Val} (h : ExpandedReturns (.path0 x) s (.ok r v)) :
    ∃ t defs, weedleParse t = .ok defs ∧ Source.Part v (.list (defs.map definitionVal)) := by
  have hl : ∀ u, Source.Part u v → Legal u := fun u hu => C81_legal hd hx h hu
  have ht : HasType crateItems (.path0 x) v := C51_typed expandSource_eq hd hx h
  rw [readSource_eq] at hd
  cases hd
  by_cases e : x = c!"Definitions"
  · subst e
    obtain ⟨defs, rfl, w⟩ := Exact.vec (n := _) Exact.definition v (Exact.Good.alias Exact.mDefinitions ⟨ht, hl, Nat.le_refl _⟩)
    exact ⟨_, defs, C21_round_trip defs w, .refl⟩
  · exact occurs_found (Exact.in_all hx hu e v ht hl)

/-- A type that has no values by itself in a document, with a text left over. -/
example : WellFormed decls (.path0 c!"OctLit") ∧ ExpandedReturns (.path0 c!"OctLit") c!" 017 x" (.ok c!"x" (octVal c!"017")) :=
  ⟨⟨by decide, by decide +kernel⟩, C50_parser .octLit _⟩

/-- A value of a type without parameters occurs in the result of `weedle::parse` on some text if and only if every value that occurs in it
meets the conditions of C81. -/
theorem C82_exact {ds : List Decl} (hd : readSource = some ds) {is : List Item} (hi : expandSource = some is) {x : Str}
    (hx : WellFormed ds (.path0 x)) (hu : x ∉ [c!"Minus", c!"Dot", c!"True", c!"False"]) {v : Val} (hv : HasType is (.path0 x) v) :
    (∃ t defs, weedleParse t = .ok defs ∧ Source.Part v (.list (defs.map definitionVal))) ↔ ∀ u, Source.Part u v → Legal u := by
  refine ⟨fun ⟨t, defs, h, p⟩ u q => C81_document t defs h (.trans q p), fun h => ?_⟩
  obtain ⟨s, h⟩ := (C81_exact hd hi hx hv).2 h
  exact C82_occurs hd hx hu h

/-- Both sides: a name, and a string that is no name. -/
example : HasType crateItems (.path0 c!"Identifier") (identVal c!"a") ∧ HasType crateItems (.path0 c!"Identifier") (identVal c!"1") ∧
    (∃ t defs, weedleParse t = .ok defs ∧ Source.Part (identVal c!"a") (.list (defs.map definitionVal))) ∧
    ¬ ∃ t defs, weedleParse t = .ok defs ∧ Source.Part (identVal c!"1") (.list (defs.map definitionVal)) := by
  have ho (w : Str) : HasType crateItems (.path0 c!"Identifier") (identVal w) := .newtype Exact.mIdentifier (.str w)
  have hw : WellFormed decls (.path0 c!"Identifier") := ⟨by decide, by decide +kernel⟩
  refine ⟨ho _, ho _, C82_occurs readSource_eq hw (by decide) (s := c!"a") (C50_parser .identifier _), fun h => ?_⟩
  have := ((C82_exact readSource_eq expandSource_eq hw (by decide) (ho _)).1 h _ .refl).name _ rfl
  obtain ⟨c, w, e, hc, -⟩ := word_iff.1 this
  cases e
  revert hc
  decide

/-- Every variant of every enum occurs in the result of `weedle::parse` on some text. -/
theorem C82_variants {is : List Item} (hi : expandSource = some is) {x y : Str} {T : RTy} {us : List (Str × RTy)} (hm : .enum x us ∈ is)
    (hy : (y, T) ∈ us) : ∃ t defs w, weedleParse t = .ok defs ∧ Source.Part (.variant x y w) (.list (defs.map definitionVal)) := by
  rw [expandSource_eq] at hi
  cases hi
  exact Exact.variant_found hm hy

example : Item.enum c!"SingleType" [(c!"Any", .path0 c!"Any"), (c!"NonAny", .path0 c!"NonAnyType")] ∈ crateItems := Exact.mSingleType

/-- No value of the four types of tokens occurs in a document, although they have parsers that succeed. -/
theorem C82_unused {x : Str} (hx : x ∈ [c!"Minus", c!"Dot", c!"True", c!"False"]) {t : Str} {defs : List Definition}
    (h : weedleParse t = .ok defs) : ¬ Source.Part (.token x) (.list (defs.map definitionVal)) := by
  intro hp
  have h' := C50_parser .definitions (print defs)
  have e : G.definitions.parse (print defs) = .ok [] defs := by
    have := C21_reprint t defs h
    unfold weedleParse at this
    cases e : G.definitions.parse (print defs) with
    | ok r as =>
      rw [e] at this
      cases r with
      | nil => cases this; rfl
      | cons c r => cases this
    | err x => rw [e] at this; cases this
    | diverge => rw [e] at this; cases this
  rw [e] at h'
  have ht := C51_typed expandSource_eq readSource_eq (T := .path0 c!"Definitions") ⟨by decide, by decide +kernel⟩ h'
  have := Exact.unused_mentioned x hx
  exact (Exact.token_named ht hp).elim this.1 this.2

/-- Of the types without parameters, only the token's own type has results in which it occurs. -/
theorem C82_alone {ds : List Decl} (hd : readSource = some ds) {x y : Str} (hx : x ∈ [c!"Minus", c!"Dot", c!"True", c!"False"])
    (hy : WellFormed ds (.path0 y)) {s r : Str} {v : Val} (h : ExpandedReturns (.path0 y) s (.ok r v)) (hp : Source.Part (.token x) v) : y = x := by
  have ht := C51_typed expandSource_eq hd hy h
  exact (Exact.token_named ht hp).elim (fun h => (List.mem_singleton.1 h).symm) fun h => absurd h (Exact.unused_mentioned x hx).2

example : WellFormed decls (.path0 c!"Dot") ∧ ExpandedReturns (.path0 c!"Dot") c!". ." (.ok c!"." (.token c!"Dot")) :=
  ⟨⟨by decide, by decide +kernel⟩, C50_parser (.punct .dot) _⟩

/-- The literal in a document is a `bool`. -/
example : ExpandedReturns (.path0 c!"True") c!"true" (.ok [] (.token c!"True")) ∧
    ∃ defs, weedleParse c!"namespace A{const byte b=true;};" = .ok defs ∧ Source.Part (booleanVal true) (.list (defs.map definitionVal)) :=
  ⟨C50_parser (.kw .true) _, _, rfl, .list (List.mem_singleton.2 rfl) (.variant (Exact.inField c!"members" rfl (Exact.inField c!"body" rfl
    (.list (List.mem_singleton.2 rfl) (.variant (Exact.inField c!"const_value" rfl (.variant .refl)))))))⟩

end Verif.Properties
