import Verif.Proof.Kind
import Verif.Properties.Results

/-!
# C32, C39: kinds of definitions, brackets
-/

namespace Verif.Properties
open Nom Spec

theorem accepted_lexes {s : Str} {ds : List Definition} {ls : List Str} (h : weedleParse s = .ok ds) (hl : Lexes s ls) :
    definitions ds ls := by
  rw [document_iff, document_lexes] at h
  rcases h with ⟨rfl, rfl⟩ | ⟨-, l, h1, h2⟩
  · exact lexes_unique hl lexes_nil
  · exact lexes_unique hl h1 ▸ h2

/-! ## C32: the first words of a definition -/

/-- The kind of a definition can be told from its first items after the attributes. -/
theorem C32_kind (s r : Str) (d : Definition) (h : G.definition.parse s = .ok r d) :
    ∃ ls, Begins ls s r ∧ classify (afterAttributes ls) = some (kind d) := by
  obtain ⟨⟨t, ls, b, h1, h2, h3, h4⟩, -⟩ := definition_iff.1 h
  exact ⟨ls, ⟨t, b, h1, h2, h4⟩, kind_classify d h3⟩

example : ∃ ls, Begins ls c!"[A] partial interface mixin B {}; x" c!"x" ∧ classify (afterAttributes ls) = some .partialInterfaceMixin :=
  C32_kind _ _ (.partialInterfaceMixin (some [.noArgs c!"A"]) c!"B" []) rfl

/-- A text with one definition. -/
theorem C32_single (s : Str) (ls : List Str) (hl : Lexes s ls) (d : Definition) (h : weedleParse s = .ok [d]) :
    classify (afterAttributes ls) = some (kind d) := by
  have := accepted_lexes h hl
  obtain ⟨a, b, rfl, h1, rfl⟩ := this
  rw [List.append_nil]
  exact kind_classify d h1

example : classify (afterAttributes [c!"[", c!"A", c!"]", c!"a", c!"includes", c!"b", c!";"]) = some .includesStatement :=
  C32_single c!"[A] a includes b;" _ (lexes_sound (by decide +kernel)) _ rfl

/-- Every definition in an accepted text has its part of the text, and its kind can be told from it. -/
theorem C32_document (s : Str) (ls : List Str) (hl : Lexes s ls) (ds : List Definition) (h : weedleParse s = .ok ds) :
    ∃ parts : List (List Str), ls = parts.flatten ∧ parts.map (classify ∘ afterAttributes) = ds.map (some ∘ kind) ∧
      parts.map (weedleParse ∘ spaced) = ds.map fun d => .ok [d] := by
  have hd := accepted_lexes h hl
  clear hl h
  rename definitions ds ls => h
  induction ds generalizing ls with
  | nil => exact ⟨[], h, rfl, rfl⟩
  | cons d ds ih =>
    obtain ⟨a, b, rfl, h1, h2⟩ := h
    obtain ⟨parts, rfl, h3, h4⟩ := ih b h2
    refine ⟨a :: parts, rfl, by simp [h3, kind_classify d h1], ?_⟩
    rw [List.map_cons, List.map_cons, h4]
    congr 1
    show weedleParse (spaced a) = _
    rw [document_iff]
    exact .inr ⟨by simp, [], a, _, rfl, .nil, ⟨a, [], by simp, h1, rfl⟩, text_spaced a⟩

/-- Definitions with different first items are of different kinds. -/
theorem C32_distinct (s s' : Str) (ls ls' : List Str) (hl : Lexes s ls) (hl' : Lexes s' ls') (d d' : Definition)
    (h : weedleParse s = .ok [d]) (h' : weedleParse s' = .ok [d'])
    (hc : classify (afterAttributes ls) ≠ classify (afterAttributes ls')) : kind d ≠ kind d' := by
  intro hk
  rw [C32_single s ls hl d h, C32_single s' ls' hl' d' h', hk] at hc
  exact hc rfl

example : ∃ d, weedleParse c!"[A(optional [B] sequence<long> x = [])] callback interface = any ();" = .ok [d] ∧
    classify (afterAttributes [c!"[", c!"A", c!"(", c!"optional", c!"[", c!"B", c!"]", c!"sequence", c!"<", c!"long",
      c!">", c!"x", c!"=", c!"[", c!"]", c!")", c!"]", c!"callback", c!"interface", c!"=", c!"any", c!"(", c!")", c!";"]) =
      some (kind d) ∧ kind d = .callback :=
  ⟨_, rfl, C32_single c!"[A(optional [B] sequence<long> x = [])] callback interface = any ();" _ (lexes_sound (by decide +kernel)) _ rfl, rfl⟩

example : ∃ d r, G.definition.parse c!"interface mixin mixin {}; x" = .ok r d ∧ kind d = .interfaceMixin ∧
    ∃ ls, Begins ls c!"interface mixin mixin {}; x" r ∧ classify (afterAttributes ls) = some (kind d) :=
  ⟨_, _, rfl, rfl, C32_kind _ _ _ rfl⟩

example : ∃ d d', weedleParse c!"interface mixin {};" = .ok [d] ∧ weedleParse c!"interface mixin a {};" = .ok [d'] ∧
    kind d ≠ kind d' :=
  ⟨_, _, rfl, rfl, C32_distinct c!"interface mixin {};" c!"interface mixin a {};" [c!"interface", c!"mixin", c!"{", c!"}", c!";"]
    [c!"interface", c!"mixin", c!"a", c!"{", c!"}", c!";"] (lexes_sound (by decide +kernel)) (lexes_sound (by decide +kernel))
    _ _ rfl rfl (by decide +kernel)⟩

example : ∃ ds, weedleParse c!"a includes b; [C] enum E { \"x\" };" = .ok ds ∧
    ds.map kind = [.includesStatement, .enum] ∧
    ∃ parts : List (List Str), [c!"a", c!"includes", c!"b", c!";", c!"[", c!"C", c!"]", c!"enum", c!"E", c!"{", c!"\"x\"",
      c!"}", c!";"] = parts.flatten ∧ parts.map (classify ∘ afterAttributes) = ds.map (some ∘ kind) ∧
      parts.map (weedleParse ∘ spaced) = ds.map fun d => .ok [d] :=
  ⟨_, rfl, rfl, C32_document c!"a includes b; [C] enum E { \"x\" };" _ (lexes_sound (by decide +kernel)) _ rfl⟩

/-! Keywords are names, too, where no earlier alternative takes them. -/

example : weedleParse c!"typedef includes x;" =
    .ok [.typedef none (.mk none (.single (.nonAny (.identifier c!"includes" false)))) c!"x"] := by rfl

example : weedleParse c!"interface mixin M { static foo(); };" =
    .ok [.interfaceMixin none c!"M" [.operation ⟨none, false, .type (.single (.nonAny (.identifier c!"static" false))),
      some c!"foo", []⟩]] := by rfl

example : weedleParse c!"namespace N { static foo(); };" =
    .ok [.namespace none c!"N" [.operation ⟨none, .type (.single (.nonAny (.identifier c!"static" false))),
      some c!"foo", []⟩]] := by rfl

example : weedleParse c!"namespace N { static(); };" =
    .ok [.namespace none c!"N" [.operation ⟨none, .type (.single (.nonAny (.identifier c!"static" false))), none, []⟩]] := by rfl

example : weedleParse c!"interface I { static(); };" = .panic := by rfl

/-! ## C39: brackets -/

/-- All brackets in an accepted text are matched. -/
theorem C39_balanced (s : Str) (ls : List Str) (hl : Lexes s ls) (ds : List Definition) (h : weedleParse s = .ok ds) :
    Balanced ls :=
  bal_definitions ds ls (accepted_lexes h hl)

example : Balanced [c!"[", c!"A", c!"(", c!"B", c!"c", c!")", c!"]", c!"a", c!"includes", c!"b", c!";"] :=
  C39_balanced c!"[A(B c)] a includes b;" _ (lexes_sound (by decide +kernel)) _ rfl

/-- A text with an unmatched bracket is rejected. -/
theorem C39_unbalanced (s : Str) (ls : List Str) (hl : Lexes s ls) (h : ¬ Balanced ls) : weedleParse s = .panic := by
  rcases C02_never_err s with ⟨ds, h1⟩ | h1
  · exact absurd (C39_balanced s ls hl ds h1) h
  · exact h1

theorem balanced_count {ls : List Str} (h : Balanced ls) : ∀ p ∈ pairs, ls.count p.1 = ls.count p.2 := by
  induction h with
  | nil => intros; rfl
  | item hw _ ih =>
    intro p hp
    rw [List.count_cons_of_ne (hw p hp).1, List.count_cons_of_ne (hw p hp).2, ih p hp]
  | group hp _ _ ih ih' =>
    intro p hp'
    have h1 := ih p hp'
    have h2 := ih' p hp'
    simp only [List.cons_append, List.count_cons, List.count_append, h1, h2]
    simp [pairs] at hp hp'
    rcases hp with ⟨rfl, rfl⟩ | ⟨rfl, rfl⟩ | ⟨rfl, rfl⟩ | ⟨rfl, rfl⟩ <;> rcases hp' with rfl | rfl | rfl | rfl <;>
      simp <;> omega

/-- A text with different numbers of opening and closing brackets is rejected. -/
theorem C39_count (s : Str) (ls : List Str) (hl : Lexes s ls) (o c : Str) (hp : (o, c) ∈ pairs)
    (h : ls.count o ≠ ls.count c) : weedleParse s = .panic :=
  C39_unbalanced s ls hl fun hb => h (balanced_count hb _ hp)

example : weedleParse c!"interface A { void f(long a; };" = .panic :=
  C39_count _ [c!"interface", c!"A", c!"{", c!"void", c!"f", c!"(", c!"long", c!"a", c!";", c!"}", c!";"]
    (lexes_sound (by decide +kernel)) c!"(" c!")" (by decide) (by decide)

end Verif.Properties
