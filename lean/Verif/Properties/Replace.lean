import Verif.Source.ReplaceProof
import Verif.Properties.Legal
import Verif.Properties.Typing

/-!
# C83: replacing a node of a result

`Replaced u u' v v'` (`Verif/Source/Replace.lean`): `v'` is `v` with `u'` in the place of one occurrence of `u`.
-/

namespace Verif.Properties
open Nom Source Spec

private theorem replaced {T : RTy} {v v' u u' : Val} (ht : HasType crateItems T v) (hl : ∀ w, Source.Part w v → Legal w) (hn : u.isNode = true)
    (ha : u.typeName ≠ c!"AttributedType") (hb : u.typeName ≠ c!"NonAnyType") (hw : WellFormed decls (.path0 u.typeName)) {s r : Str}
    (hu : ExpandedReturns (.path0 u.typeName) s (.ok r u')) (hr : Replaced u u' v v') :
    HasType crateItems T v' ∧ ∀ w, Source.Part w v' → Legal w := by
  have ht' : HasType crateItems (.path0 u.typeName) u' := C51_typed expandSource_eq readSource_eq hw hu
  have hl' : ∀ w, Source.Part w u' → Legal w := fun w h => C81_legal readSource_eq hw hu h
  obtain ⟨T', hT'⟩ := Exact.part_type ht (Exact.replaced_mem hr)
  obtain ⟨h1, h2, h3⟩ := Exact.node_type hT' hn rfl ht'
  have h4 := Exact.replaced_type (fun T h => Exact.swap_type hn rfl h1 ht' h) ht hr
  refine ⟨h4, fun w h => ?_⟩
  rcases Exact.replaced_part hr h with h5 | h5 | ⟨w0, h5, h6⟩
  · exact hl w h5
  · exact hl' w h5
  · obtain ⟨T'', h7⟩ := Exact.part_type h4 h
    exact Exact.replaced_legal hn h2 (h3 ▸ ha) (h3 ▸ hb) h6 (hl _ h5) (hl' _ .refl) h7

/-- A node of a result, of a type without parameters other than `AttributedType` and `NonAnyType`, may be replaced by whatever the parser of its
type returns on any text: the outcome is a result again. -/
theorem C83_replace {ds : List Decl} (hd : readSource = some ds) {y : Str} (hy : WellFormed ds (.path0 y)) {s r : Str} {v : Val}
    (h : ExpandedReturns (.path0 y) s (.ok r v)) {u u' v' : Val} (hn : u.isNode = true) (hw : WellFormed ds (.path0 u.typeName)) {s' r' : Str}
    (hu : ExpandedReturns (.path0 u.typeName) s' (.ok r' u')) (ha : u.typeName ≠ c!"AttributedType") (hb : u.typeName ≠ c!"NonAnyType")
    (hr : Replaced u u' v v') : ∃ t, ExpandedReturns (.path0 y) t (.ok [] v') := by
  rw [readSource_eq] at hd
  cases hd
  obtain ⟨h1, h2⟩ := replaced (C51_typed expandSource_eq readSource_eq hy h) (fun w hp => C81_legal readSource_eq hy h hp) hn ha hb hw hu hr
  exact (C81_exact readSource_eq expandSource_eq hy h1).2 h2

private theorem definitions_ok {s : Str} {defs : List Definition} (h : weedleParse s = .ok defs) : G.definitions.parse s = .ok [] defs := by
  unfold weedleParse at h
  cases e : G.definitions.parse s with
  | ok r as =>
    rw [e] at h
    cases r with
    | nil => cases h; rfl
    | cons c r => cases h
  | err x => rw [e] at h; cases h
  | diverge => rw [e] at h; cases h

/-- The same for documents: the outcome is what `weedle::parse` returns on some text. -/
theorem C83_document {ds : List Decl} (hd : readSource = some ds) {s : Str} {defs : List Definition} (h : weedleParse s = .ok defs) {u u' v' : Val}
    (hn : u.isNode = true) (hw : WellFormed ds (.path0 u.typeName)) {s' r' : Str} (hu : ExpandedReturns (.path0 u.typeName) s' (.ok r' u'))
    (ha : u.typeName ≠ c!"AttributedType") (hb : u.typeName ≠ c!"NonAnyType") (hr : Replaced u u' (.list (defs.map definitionVal)) v') :
    ∃ t defs', weedleParse t = .ok defs' ∧ v' = .list (defs'.map definitionVal) := by
  rw [readSource_eq] at hd
  cases hd
  have h' := C50_parser .definitions s
  rw [definitions_ok h] at h'
  have hT : WellFormed decls (.path0 c!"Definitions") := ⟨by decide, by decide +kernel⟩
  obtain ⟨h1, h2⟩ := replaced (C51_typed expandSource_eq readSource_eq hT h') (fun w hp => C81_document s defs h hp) hn ha hb hw hu hr
  obtain ⟨defs', rfl, w⟩ := Exact.vec Exact.definition v' (Exact.Good.alias Exact.mDefinitions ⟨h1, h2, Nat.le_refl _⟩)
  exact ⟨_, defs', C21_round_trip defs' w, rfl⟩

/-- A name in a document is replaced by another one, read from a text of its own. -/
example : ∃ defs v', weedleParse c!"A includes B;" = .ok defs ∧ (identVal c!"B").isNode = true ∧ WellFormed decls (.path0 (identVal c!"B").typeName) ∧
    ExpandedReturns (.path0 (identVal c!"B").typeName) c!"_long x" (.ok c!"x" (identVal c!"long")) ∧
    Replaced (identVal c!"B") (identVal c!"long") (.list (defs.map definitionVal)) v' ∧
    v' = .list ([.includesStatement none c!"A" c!"long"].map definitionVal) :=
  ⟨_, _, rfl, rfl, ⟨by decide, by decide +kernel⟩, C50_parser .identifier _, .list (vs := []) (.variant (.struct (vs := [_, _, _]) .here)), rfl⟩

private def argumentType (as : Option (List ExtAttr)) : AttributedType := .mk as (.single .any)

private def argumentDefinition (as : Option (List ExtAttr)) : Definition :=
  .callback none c!"A" .undefined [.single none false (argumentType as) c!"a" none]

/-- Not so for `AttributedType`: with attributes, the type of an argument that is not optional is not a result. -/
theorem C83_attributes : ∃ s defs s' u u' v', weedleParse s = .ok defs ∧
    ExpandedReturns (.path0 c!"AttributedType") s' (.ok [] u') ∧ u.typeName = c!"AttributedType" ∧
    Replaced u u' (.list (defs.map definitionVal)) v' ∧ ¬ ∃ t defs', weedleParse t = .ok defs' ∧ v' = .list (defs'.map definitionVal) := by
  refine ⟨c!"callback A=undefined(any a);", [argumentDefinition none], c!"[B]any", attributedTypeVal (argumentType none),
    attributedTypeVal (argumentType (some [.noArgs c!"B"])), .list [definitionVal (argumentDefinition (some [.noArgs c!"B"]))], rfl,
    C50_parser .attributedType _, rfl, .list (vs := []) (.variant (.struct (vs := [_, _, _, _, _]) (.struct (vs := [_])
      (.struct (vs := []) (.list (vs := []) (.variant (.struct (vs := [_, _]) .here))))))), ?_⟩
  rintro ⟨t, defs', h, e⟩
  have := C81_document t defs' h (u := (argumentVal (.single none false (argumentType (some [.noArgs c!"B"])) c!"a" none)).payload)
    (e ▸ .list (List.mem_singleton.2 rfl) (.variant (.struct (x := c!"arguments") (.tail _ (.tail _ (.tail _ (.tail _ (.tail _ (.head _))))))
      (.struct (x := c!"body") (.tail _ (.head _)) (.struct (x := c!"list") (.head _) (.list (List.mem_singleton.2 rfl) (.variant .refl)))))))
  have := this.attributes _ rfl rfl rfl
  cases this

private def keyDefinition (t : NonAnyType) : Definition :=
  .typedef none (.mk none (.single (.nonAny (.record (.nonAny t) (.single .any) false)))) c!"A"

/-- Nor for `NonAnyType`: a string type as the key of a record is a variant of its own. -/
theorem C83_key : ∃ s defs s' u u' v', weedleParse s = .ok defs ∧
    ExpandedReturns (.path0 c!"NonAnyType") s' (.ok [] u') ∧ u.typeName = c!"NonAnyType" ∧
    Replaced u u' (.list (defs.map definitionVal)) v' ∧ ¬ ∃ t defs', weedleParse t = .ok defs' ∧ v' = .list (defs'.map definitionVal) := by
  refine ⟨c!"typedef record<B,any>A;", [keyDefinition (.identifier c!"B" false)], c!"DOMString", nonAnyTypeVal (.identifier c!"B" false),
    nonAnyTypeVal (.builtin .domString false), .list [definitionVal (keyDefinition (.builtin .domString false))], rfl,
    C50_parser .nonAnyType _, rfl, .list (vs := []) (.variant (.struct (vs := [_, _]) (.struct (vs := [_]) (.variant (.variant (.variant
      (.struct (vs := []) (.struct (vs := [_]) (.struct (vs := [_]) (.triple1 (.box (.variant .here))))))))))))
    , ?_⟩
  rintro ⟨t, defs', h, e⟩
  have := C81_document t defs' h (u := recordKeyTypeVal (.nonAny (.builtin .domString false)))
    (e ▸ .list (List.mem_singleton.2 rfl) (.variant (.struct (x := c!"type_") (.tail _ (.tail _ (.head _))) (.struct (x := c!"type_")
      (.tail _ (.head _)) (.variant (.variant (.variant (.struct (x := c!"type_") (.head _) (.struct (x := c!"generics") (.tail _ (.head _))
        (.struct (x := c!"body") (.tail _ (.head _)) (.triple1 (.box .refl)))))))))))
    )
  exact (this.key _ _ rfl).2.1 rfl

end Verif.Properties
