import Verif.Source.ReplaceProof
import Verif.Properties.Legal
import Verif.Properties.Typing

/-!
# C85: leaving out what is optional

`Cleared v v'` (`Verif/Source/Replace.lean`): `v'` is `v` with `None` in the place of one `Some` in it, at any depth, other than the fields
`optional` and `attributes` of an argument.
-/

namespace Verif.Properties
open Nom Source Spec

private theorem cleared {T : RTy} {v v' : Val} (ht : HasType crateItems T v) (hl : ∀ w, Source.Part w v → Legal w) (hr : Cleared v v') :
    HasType crateItems T v' ∧ ∀ w, Source.Part w v' → Legal w := by
  refine ⟨Exact.cleared_type ht hr, fun w h => ?_⟩
  rcases Exact.cleared_part hr h with h1 | ⟨w0, h1, h2⟩
  · exact hl w h1
  · exact Exact.cleared_legal h2 (hl _ h1)

/-- Whatever is optional in a result may be left out, except that arguments stay optional and keep their attributes: the outcome is a result
again. -/
theorem C85_clear {ds : List Decl} (hd : readSource = some ds) {y : Str} (hy : WellFormed ds (.path0 y)) {s r : Str} {v : Val}
    (h : ExpandedReturns (.path0 y) s (.ok r v)) {v' : Val} (hr : Cleared v v') : ∃ t, ExpandedReturns (.path0 y) t (.ok [] v') := by
  rw [readSource_eq] at hd
  cases hd
  obtain ⟨h1, h2⟩ := cleared (C51_typed expandSource_eq readSource_eq hy h) (fun w hp => C81_legal readSource_eq hy h hp) hr
  exact (C81_exact readSource_eq expandSource_eq hy h1).2 h2

private theorem definitions_ok {s : Str} {defs : List Definition} (h : weedleParse s = .ok defs) : G.definitions.parse s = .ok [] defs := by
  unfold weedleParse at h
  cases e : G.definitions.parse s with
  | ok r as =>
    rw [e] at h
    cases r with
    | nil => cases h; rfl
    | cons c r => cases h
  | err x => rw [e] at h; cases h
  | diverge => rw [e] at h; cases h

/-- The same for documents: the outcome is what `weedle::parse` returns on some text. -/
theorem C85_document {s : Str} {defs : List Definition} (h : weedleParse s = .ok defs) {v' : Val}
    (hr : Cleared (.list (defs.map definitionVal)) v') : ∃ t defs', weedleParse t = .ok defs' ∧ v' = .list (defs'.map definitionVal) := by
  have h' := C50_parser .definitions s
  rw [definitions_ok h] at h'
  have hT : WellFormed decls (.path0 c!"Definitions") := ⟨by decide, by decide +kernel⟩
  obtain ⟨h1, h2⟩ := cleared (C51_typed expandSource_eq readSource_eq hT h') (fun w hp => C81_document s defs h hp) hr
  obtain ⟨defs', rfl, w⟩ := Exact.vec Exact.definition v' (Exact.Good.alias Exact.mDefinitions ⟨h1, h2, Nat.le_refl _⟩)
  exact ⟨_, defs', C21_round_trip defs' w, rfl⟩

private def callback (as : Option (List ExtAttr)) (o : Bool) (bs : Option (List ExtAttr)) (d : Option DefaultValue) : Definition :=
  .callback none c!"A" .undefined [.single as o (.mk bs (.single .any)) c!"a" d]

/-- The default value of an argument is left out. -/
example : ∃ s v', weedleParse s = .ok [callback none true none (some .null)] ∧
    Cleared (.list ([callback none true none (some .null)].map definitionVal)) v' ∧
    v' = .list ([callback none true none none].map definitionVal) :=
  ⟨c!"callback A=undefined(optional any a=null);", _, rfl,
    .list (vs := []) (.variant (.struct (vs := [_, _, _, _, _]) (.struct (vs := [_]) (.struct (vs := []) (.list (vs := []) (.variant
      (.struct (vs := [_, _, _, _]) .here fun _ e => absurd e (by decide)))) fun _ e => absurd e (by decide)) fun _ e => absurd e (by decide))
      fun _ e => absurd e (by decide))), rfl⟩

/-- Without `optional` but with its default value an argument is not a result. -/
theorem C85_optional : ∃ s, weedleParse s = .ok [callback none true none (some .null)] ∧
    ¬ ∃ t defs', weedleParse t = .ok defs' ∧ Val.list ([callback none false none (some .null)].map definitionVal) = .list (defs'.map definitionVal) := by
  refine ⟨c!"callback A=undefined(optional any a=null);", rfl, ?_⟩
  rintro ⟨t, defs', h, e⟩
  have := C81_document t defs' h (u := (argumentVal (.single none false (.mk none (.single .any)) c!"a" (some .null))).payload)
    (e ▸ .list (List.mem_singleton.2 rfl) (.variant (.struct (x := c!"arguments") (.tail _ (.tail _ (.tail _ (.tail _ (.tail _ (.head _))))))
      (.struct (x := c!"body") (.tail _ (.head _)) (.struct (x := c!"list") (.head _) (.list (List.mem_singleton.2 rfl) (.variant .refl)))))))
  have := this.default _ rfl rfl
  cases this

/-- Nor is one that is not optional without its attributes, but with those of its type. -/
theorem C85_attributes : ∃ s, weedleParse s = .ok [callback (some [.noArgs c!"B"]) false (some [.noArgs c!"C"]) none] ∧
    ¬ ∃ t defs', weedleParse t = .ok defs' ∧
      Val.list ([callback none false (some [.noArgs c!"C"]) none].map definitionVal) = .list (defs'.map definitionVal) := by
  refine ⟨c!"callback A=undefined([B][C]any a);", rfl, ?_⟩
  rintro ⟨t, defs', h, e⟩
  have := C81_document t defs' h (u := (argumentVal (.single none false (.mk (some [.noArgs c!"C"]) (.single .any)) c!"a" none)).payload)
    (e ▸ .list (List.mem_singleton.2 rfl) (.variant (.struct (x := c!"arguments") (.tail _ (.tail _ (.tail _ (.tail _ (.tail _ (.head _))))))
      (.struct (x := c!"body") (.tail _ (.head _)) (.struct (x := c!"list") (.head _) (.list (List.mem_singleton.2 rfl) (.variant .refl)))))))
  have := this.attributes _ rfl rfl rfl
  cases this

end Verif.Properties
