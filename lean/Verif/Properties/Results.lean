import Verif.Proof.Collect
import Verif.Properties.Grammar

/-!
# C21, C24, C25, C31: what the results of `weedle::parse` look like

`Wf`, `print` are in `Verif/Spec/Print.lean`, `strings`, `args` in `Verif/Spec/Collect.lean`.
-/

namespace Verif.Properties
open Nom Spec

/-! ## C21: round trip -/

/-- Printing well-formed definitions and parsing the text gives them back. -/
theorem C21_round_trip (ds : List Definition) (h : Wf ds) : weedleParse (print ds) = .ok ds :=
  document_iff.2 (document_print h)

example : weedleParse (print [.includesStatement none c!"long" c!"B"]) = .ok [.includesStatement none c!"long" c!"B"] :=
  C21_round_trip _ fun d hd => by
    have hw : ∀ c v, c.isAlpha = true → (∀ x ∈ v, isIdentChar x = true) → WfName (c :: v) := fun c v h1 h2 => word_iff.2 ⟨c, v, rfl, h1, h2⟩
    simp only [List.mem_singleton] at hd
    subst hd
    exact ⟨trivial, hw _ _ (by decide) (by decide), hw _ _ (by decide) (by decide)⟩

/-- The well-formed definitions are exactly those that some text is parsed to. -/
theorem C21_wellformed (ds : List Definition) : Wf ds ↔ ∃ s, weedleParse s = .ok ds :=
  ⟨fun h => ⟨_, C21_round_trip ds h⟩, fun ⟨_, h⟩ => document_wf (document_iff.1 h)⟩

example : ¬ ∃ s, weedleParse s = .ok [.includesStatement none c!"A" c!"1"] := by
  rw [← C21_wellformed]
  intro h
  obtain ⟨c, v, h, hc, -⟩ := word_iff.1 (h _ (List.mem_singleton.2 rfl)).2.2
  cases h
  revert hc
  decide

/-- Parsing, printing and parsing again is the same as parsing once. -/
theorem C21_reprint (s : Str) (ds : List Definition) (h : weedleParse s = .ok ds) :
    weedleParse (print ds) = .ok ds := C21_round_trip ds ((C21_wellformed ds).2 ⟨s, h⟩)

set_option maxRecDepth 10000 in
/-- The hypotheses are met by `sample`; its printed form is another text. -/
example : ∃ ds, weedleParse sample = .ok ds ∧ Wf ds ∧ weedleParse (print ds) = .ok ds := by
  obtain ⟨ds, h⟩ : ∃ ds, weedleParse sample = .ok ds := ⟨_, rfl⟩
  exact ⟨ds, h, (C21_wellformed ds).2 ⟨_, h⟩, C21_reprint _ _ h⟩

example : print [.typedef (some [.noArgs c!"A"]) (.mk none (.single (.nonAny (.integer (.long true) true)))) c!"long"]
    = c!"[ _A ] typedef unsigned long ? _long ; " := by rfl

/-! ## C24: the strings of the result are slices of the input -/

/-- All identifiers and literals of the result are disjoint slices of the input, in
the order in which the result contains them. -/
theorem C24_slices (s : Str) (ds : List Definition) (h : weedleParse s = .ok ds) : InOrder (strings ds) s :=
  document_strings (document_iff.1 h)

example : InOrder [c!"a", c!"b", c!"c"] c!"enum _a { \"b\", \"c\" };" := C24_slices _ [.enum none c!"a" [c!"b", c!"c"]] rfl

theorem mem_inOrder {vs : List Str} {s v : Str} (h : InOrder vs s) (hv : v ∈ vs) : v <:+: s := by
  induction h with
  | nil => cases hv
  | @cons w ws a b _ ih =>
    rcases List.mem_cons.1 hv with rfl | hv
    · exact ⟨a, b, rfl⟩
    · obtain ⟨x, y, rfl⟩ := ih hv
      exact ⟨a ++ w ++ x, y, by simp⟩

/-- Each of them is a slice of the input. -/
theorem C24_each (s : Str) (ds : List Definition) (h : weedleParse s = .ok ds) (v : Str) (hv : v ∈ strings ds) :
    v <:+: s := mem_inOrder (C24_slices s ds h) hv

example : ∃ ds, weedleParse c!"enum _a { \"b\" }; dictionary d : e { [f] g h = -1; };" = .ok ds ∧
    strings ds = [c!"a", c!"b", c!"d", c!"e", c!"f", c!"g", c!"h", c!"-1"] := ⟨_, rfl, rfl⟩

/-! ## C25: default values -/

/-- No argument of the result, at any depth, has a default value without being optional. -/
theorem C25_default_optional (s : Str) (ds : List Definition) (h : weedleParse s = .ok ds) (as : Attrs)
    (optional : Bool) (t : AttributedType) (i : Str) (v : DefaultValue)
    (ha : .single as optional t i (some v) ∈ args ds) : optional = true := by
  have := args_definitions (document_wf (document_iff.1 h)) _ ha
  simp only [WfArgument] at this
  cases optional
  · cases (this.2.2.2.2 rfl).1
  · rfl

example (ds : List Definition) (h : weedleParse c!"callback a = void (optional long b = 1);" = .ok ds) :
    ∃ v, .single none true (.mk none (.single (.nonAny (.integer (.long false) false)))) c!"b" (some v) ∈ args ds := by
  have h' : weedleParse c!"callback a = void (optional long b = 1);" = .ok _ := rfl
  rw [h'] at h
  cases h
  exact ⟨.integer (.dec c!"1"), List.mem_cons_self ..⟩

/-- Attributes in front of an argument that is not optional are never attributes of its type only. -/
theorem C25_attributes (s : Str) (ds : List Definition) (h : weedleParse s = .ok ds) (as' : List ExtAttr)
    (u : Ty) (i : Str) (d : Option DefaultValue) : .single none false (.mk (some as') u) i d ∉ args ds := by
  intro ha
  have := args_definitions (document_wf (document_iff.1 h)) _ ha
  simp only [WfArgument] at this
  have h' := (this.2.2.2.2 trivial).2
  simp [hasAttributes] at h'

/-- An argument inside the attributes of an argument's type. -/
example : ∃ ds, weedleParse c!"[A(optional [B(optional long c = 1)] long d)] typedef any e;" = .ok ds ∧
    (args ds).length = 2 ∧
    .single none true (.mk none (.single (.nonAny (.integer (.long false) false)))) c!"c"
      (some (.integer (.dec c!"1"))) ∈ args ds := by
  refine ⟨_, rfl, rfl, ?_⟩
  exact List.mem_cons_of_mem _ (List.mem_cons_self ..)

end Verif.Properties
