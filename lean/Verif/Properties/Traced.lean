import Verif.Source.TracedProof
import Verif.Properties.Typing

/-!
# C80: every node is what the parser of its type returns at its place

`Traced is Q s r T v` (`Verif/Source/Traced.lean`): `v` is a value of the type `T` whose parts were read between the beginnings of `s`
and of `r`, and `Q` holds of each struct, enum variant and aliased value in it, with its place.
-/

namespace Verif.Properties
open Nom Source Spec

/-- What `T::parse` returns is made of what the parsers of the types of its parts return at places within the consumed text. -/
theorem C80_traced {is : List Item} {ds : List Decl} (hi : expandSource = some is) (hd : readSource = some ds) {T : RTy}
    (hT : WellFormed ds T) {s r : Str} {v : Val} (h : ExpandedReturns T s (.ok r v)) :
    Traced is (fun U s' r' u => ExpandedReturns U s' (.ok r' u)) s r T v := by
  rw [readSource_eq] at hd
  cases hd
  obtain ⟨is', hi', N, hN⟩ := h
  rw [hi] at hi'
  cases hi'
  have h := hN N (Nat.le_refl _)
  rw [C50_same readSource_eq hi] at h
  have hQ : ∀ n U s' r' u, okTy decls unitNames [] U = true → parse decls n U s' = .ok r' u → ExpandedReturns U s' (.ok r' u) := by
    intro n U s' r' u _ e
    exact ⟨is, hi, n, fun m hm => by rw [C50_same readSource_eq hi]; exact Traces.parse_mono e hm⟩
  rw [expandSource_eq] at hi
  cases hi
  exact (Traces.parse_sound checked Links.suff_parse hQ N).1 T (okTy_of_wellFormed hT) s r v h

/-- The same for the result of `weedle::parse`, in the text it was given. -/
theorem C80_document {is : List Item} (hi : expandSource = some is) (s : Str) (ds : List Definition)
    (h : weedleParse s = .ok ds) :
    Traced is (fun U s' r' u => ExpandedReturns U s' (.ok r' u)) s [] (.path0 c!"Definitions") (.list (ds.map definitionVal)) := by
  have w : WellFormed decls (.path0 c!"Definitions") := ⟨by decide, by decide +kernel⟩
  refine C80_traced hi readSource_eq w (s := s) (r := []) ?_
  have h' := C50_parser .definitions s
  unfold weedleParse at h
  cases e : G.definitions.parse s with
  | ok r as =>
    rw [e] at h h'
    cases r with
    | nil => cases h; exact h'
    | cons c r => cases h
  | err x => rw [e] at h; cases h
  | diverge => rw [e] at h; cases h

set_option maxRecDepth 10000 in
example : ∃ is ds, expandSource = some is ∧ weedleParse c!"enum E { \"a\" }; A includes B;" = .ok ds ∧ ds.length = 2 ∧
    Traced is (fun U s' r' u => ExpandedReturns U s' (.ok r' u)) c!"enum E { \"a\" }; A includes B;" [] (.path0 c!"Definitions")
      (.list (ds.map definitionVal)) :=
  ⟨_, _, expandSource_eq, rfl, rfl, C80_document expandSource_eq c!"enum E { \"a\" }; A includes B;" _ rfl⟩

/-- The predicate rejects a value whose string does not stand in the text, or not before the rest. -/
example (is : List Item) (Q : RTy → Str → Str → Val → Prop) : Traced is Q c!"ab cd" c!"cd" (.path0 c!"&str") (.str c!"b") ∧
    ¬ Contains c!"ab cd" c!"cd" c!"x" ∧ ¬ Contains c!"ab cd" c!"cd" c!"cd" := by
  refine ⟨.str ⟨c!"a", c!" ", rfl⟩, ?_, ?_⟩
  · rintro ⟨a, b, h⟩
    have := congrArg (fun l => 'x' ∈ l) h
    simp at this
  · rintro ⟨a, b, h⟩
    have := congrArg List.length h
    have h2 : c!"ab " = a ++ (c!"cd" ++ b) := by
      have : c!"ab " ++ c!"cd" = (a ++ (c!"cd" ++ b)) ++ c!"cd" := by simpa using h
      exact List.append_cancel_right this
    have := congrArg (fun l => 'c' ∈ l) h2
    simp at this

/-- Each struct and each variant of an enum in the result of `T::parse`, at any depth, is what the parser of its own type returns at some
place in the consumed text. -/
theorem C80_node {ds : List Decl} (hd : readSource = some ds) {T : RTy} (hT : WellFormed ds T) {s r : Str} {v u : Val}
    (h : ExpandedReturns T s (.ok r v)) (hu : Part u v) (hn : u.isNode = true) :
    ∃ U s' r', s' <:+ s ∧ r' <:+ s' ∧ r <:+ r' ∧ U.name = u.typeName ∧ ExpandedReturns U s' (.ok r' u) := by
  obtain ⟨U, s1, r1, h1, h2, h3⟩ := Traces.part (C80_traced expandSource_eq hd hT h) hu
  obtain ⟨U', s2, r2, h4, h5, h6, h7, h8⟩ := Traces.node h3 hn
  exact ⟨U', s2, r2, h4.trans h1, h6, h2.trans h5, h7, h8⟩

example : Part (.variant c!"DefaultValue" c!"Null" (.token c!"Null")) (.struct c!"Default" [(c!"assign", .token c!"Assign"),
    (c!"value", .variant c!"DefaultValue" c!"Null" (.token c!"Null"))]) ∧
    (Val.variant c!"DefaultValue" c!"Null" (.token c!"Null")).isNode = true ∧ WellFormed decls (.path0 c!"Default") ∧
    ExpandedReturns (.path0 c!"Default") c!"= null x" (.ok c!"x" (.struct c!"Default" [(c!"assign", .token c!"Assign"),
      (c!"value", .variant c!"DefaultValue" c!"Null" (.token c!"Null"))])) ∧
    ExpandedReturns (.path0 c!"DefaultValue") c!"null x" (.ok c!"x" (.variant c!"DefaultValue" c!"Null" (.token c!"Null"))) :=
  ⟨.struct (x := c!"value") (by simp) .refl, rfl, ⟨by decide, by decide +kernel⟩, C50_parser .default _, C50_parser .defaultValue _⟩

/-- Each string in the result of `T::parse`, at any depth, stands in the consumed text. -/
theorem C80_string {ds : List Decl} (hd : readSource = some ds) {T : RTy} (hT : WellFormed ds T) {s r x : Str} {v : Val}
    (h : ExpandedReturns T s (.ok r v)) (hx : Part (.str x) v) : ∃ a b, s = a ++ x ++ b ++ r := by
  obtain ⟨U, s1, r1, h1, h2, h3⟩ := Traces.part (C80_traced expandSource_eq hd hT h) hx
  obtain ⟨a, b, e⟩ := Traces.contains_widen (Traces.string h3) h1 h2
  exact ⟨a, b, by simp [e]⟩

example : ExpandedReturns (.path0 c!"Identifier") c!" ab cd" (.ok c!"cd" (.newtype c!"Identifier" (.str c!"ab"))) ∧
    Part (.str c!"ab") (.newtype c!"Identifier" (.str c!"ab")) :=
  ⟨C50_parser .identifier _, .newtype .refl⟩

end Verif.Properties
