import Mathlib.Logic.Relation
import Verif.Source.ReplaceProof
import Verif.Properties.Legal
import Verif.Properties.Typing

/-!
# C84: rearranging a list in a result

`Rearranged v v'` (`Verif/Source/Replace.lean`): `v'` is `v` with one list in it, at any depth, replaced by a list of its elements.
-/

namespace Verif.Properties
open Nom Source Spec

private theorem rearranged {T : RTy} {v v' : Val} (ht : HasType crateItems T v) (hl : ∀ w, Source.Part w v → Legal w) (hr : Rearranged v v')
    (hne : ∀ fs, Source.Part (.struct c!"PunctuatedNonEmpty" fs) v' → (Val.struct c!"PunctuatedNonEmpty" fs).field c!"list" ≠ .list []) :
    HasType crateItems T v' ∧ ∀ w, Source.Part w v' → Legal w := by
  refine ⟨Exact.rearranged_type ht hr, fun w h => ?_⟩
  rcases Exact.rearranged_part hr h with h1 | ⟨w0, h1, h2⟩
  · exact hl w h1
  · exact Exact.rearranged_legal h2 (hl _ h1) fun fs e => e ▸ hne fs (e ▸ h)

/-- Elements of a list in a result may be left out, repeated and put in any order, as long as a list that must have an element keeps one: the
outcome is a result again. -/
theorem C84_rearrange {ds : List Decl} (hd : readSource = some ds) {y : Str} (hy : WellFormed ds (.path0 y)) {s r : Str} {v : Val}
    (h : ExpandedReturns (.path0 y) s (.ok r v)) {v' : Val} (hr : Rearranged v v')
    (hne : ∀ fs, Source.Part (.struct c!"PunctuatedNonEmpty" fs) v' → (Val.struct c!"PunctuatedNonEmpty" fs).field c!"list" ≠ .list []) :
    ∃ t, ExpandedReturns (.path0 y) t (.ok [] v') := by
  rw [readSource_eq] at hd
  cases hd
  obtain ⟨h1, h2⟩ := rearranged (C51_typed expandSource_eq readSource_eq hy h) (fun w hp => C81_legal readSource_eq hy h hp) hr hne
  exact (C81_exact readSource_eq expandSource_eq hy h1).2 h2

private theorem definitions_ok {s : Str} {defs : List Definition} (h : weedleParse s = .ok defs) : G.definitions.parse s = .ok [] defs := by
  unfold weedleParse at h
  cases e : G.definitions.parse s with
  | ok r as =>
    rw [e] at h
    cases r with
    | nil => cases h; rfl
    | cons c r => cases h
  | err x => rw [e] at h; cases h
  | diverge => rw [e] at h; cases h

/-- The same for documents, and only then: the outcome is what `weedle::parse` returns on some text exactly if no list that must have an element
is left without one. -/
theorem C84_document {s : Str} {defs : List Definition} (h : weedleParse s = .ok defs) {v' : Val}
    (hr : Rearranged (.list (defs.map definitionVal)) v') :
    (∃ t defs', weedleParse t = .ok defs' ∧ v' = .list (defs'.map definitionVal)) ↔
      ∀ fs, Source.Part (.struct c!"PunctuatedNonEmpty" fs) v' → (Val.struct c!"PunctuatedNonEmpty" fs).field c!"list" ≠ .list [] := by
  constructor
  · rintro ⟨t, defs', h', rfl⟩ fs hp
    exact (C81_document t defs' h' hp).nonempty _ rfl
  intro hne
  have h' := C50_parser .definitions s
  rw [definitions_ok h] at h'
  have hT : WellFormed decls (.path0 c!"Definitions") := ⟨by decide, by decide +kernel⟩
  obtain ⟨h1, h2⟩ := rearranged (C51_typed expandSource_eq readSource_eq hT h') (fun w hp => C81_document s defs h hp) hr hne
  obtain ⟨defs', rfl, w⟩ := Exact.vec Exact.definition v' (Exact.Good.alias Exact.mDefinitions ⟨h1, h2, Nat.le_refl _⟩)
  exact ⟨_, defs', C21_round_trip defs' w, rfl⟩

/-- A list that must have an element has one. -/
private def Filled (w : Val) : Prop := ∀ fs, w = .struct c!"PunctuatedNonEmpty" fs → w.field c!"list" ≠ .list []

private theorem filled {w w' : Val} (hr : Rearranged w w') (hl : Filled w → Legal w) (hf : Filled w') : Legal w' := by
  by_cases h : Filled w
  · exact Exact.rearranged_legal hr (hl h) hf
  · have : ∃ fs, w = .struct c!"PunctuatedNonEmpty" fs := by
      apply Classical.byContradiction
      intro hc
      exact h fun fs e => absurd ⟨fs, e⟩ hc
    obtain ⟨fs, rfl⟩ := this
    obtain ⟨gs, rfl⟩ : ∃ gs, w' = .struct c!"PunctuatedNonEmpty" gs := by
      generalize e : Val.struct c!"PunctuatedNonEmpty" fs = z at hr
      cases hr with
      | struct => cases e; exact ⟨_, rfl⟩
      | _ => cases e
    constructor
    case nonempty => exact hf
    case default => intro _ e; cases e
    case attributes => intro _ e; cases e
    case key => intro _ _ e; cases e
    all_goals intro _ e; cases e

private theorem many {T : RTy} {v v' : Val} (ht : HasType crateItems T v) (hl : ∀ w, Source.Part w v → Legal w)
    (hr : Relation.ReflTransGen Rearranged v v') :
    HasType crateItems T v' ∧ ∀ w, Source.Part w v' → Filled w → Legal w := by
  induction hr with
  | refl => exact ⟨ht, fun w h _ => hl w h⟩
  | tail _ hr ih =>
    refine ⟨Exact.rearranged_type ih.1 hr, fun w h hf => ?_⟩
    rcases Exact.rearranged_part hr h with h1 | ⟨w0, h1, h2⟩
    · exact ih.2 w h1 hf
    · exact filled h2 (ih.2 w0 h1) hf

/-- Any number of lists, one after the other, and only in the end each list that must have an element needs one. -/
theorem C84_many {ds : List Decl} (hd : readSource = some ds) {y : Str} (hy : WellFormed ds (.path0 y)) {s r : Str} {v : Val}
    (h : ExpandedReturns (.path0 y) s (.ok r v)) {v' : Val} (hr : Relation.ReflTransGen Rearranged v v') :
    (∃ t, ExpandedReturns (.path0 y) t (.ok [] v')) ↔
      ∀ fs, Source.Part (.struct c!"PunctuatedNonEmpty" fs) v' → (Val.struct c!"PunctuatedNonEmpty" fs).field c!"list" ≠ .list [] := by
  rw [readSource_eq] at hd
  cases hd
  constructor
  · rintro ⟨t, h'⟩ fs hp
    exact (C81_legal readSource_eq hy h' hp).nonempty _ rfl
  intro hne
  obtain ⟨h1, h2⟩ := many (C51_typed expandSource_eq readSource_eq hy h) (fun w hp => C81_legal readSource_eq hy h hp) hr
  exact (C81_exact readSource_eq expandSource_eq hy h1).2 fun w hp => h2 w hp fun fs e => e ▸ hne fs (e ▸ hp)

/-- The same for documents. -/
theorem C84_documents {s : Str} {defs : List Definition} (h : weedleParse s = .ok defs) {v' : Val}
    (hr : Relation.ReflTransGen Rearranged (.list (defs.map definitionVal)) v') :
    (∃ t defs', weedleParse t = .ok defs' ∧ v' = .list (defs'.map definitionVal)) ↔
      ∀ fs, Source.Part (.struct c!"PunctuatedNonEmpty" fs) v' → (Val.struct c!"PunctuatedNonEmpty" fs).field c!"list" ≠ .list [] := by
  constructor
  · rintro ⟨t, defs', h', rfl⟩ fs hp
    exact (C81_document t defs' h' hp).nonempty _ rfl
  intro hne
  have h' := C50_parser .definitions s
  rw [definitions_ok h] at h'
  have hT : WellFormed decls (.path0 c!"Definitions") := ⟨by decide, by decide +kernel⟩
  obtain ⟨h1, h2⟩ := many (C51_typed expandSource_eq readSource_eq hT h') (fun w hp => C81_document s defs h hp) hr
  obtain ⟨defs', rfl, w⟩ := Exact.vec Exact.definition v'
    (Exact.Good.alias Exact.mDefinitions ⟨h1, fun w hp => h2 w hp fun fs e => e ▸ hne fs (e ▸ hp), Nat.le_refl _⟩)
  exact ⟨_, defs', C21_round_trip defs' w, rfl⟩

/-- An enum loses its only value and is then left out itself: a document again, although the one in between was not. -/
example : ∃ defs v', weedleParse c!"enum A{\"b\"};" = .ok defs ∧ Relation.ReflTransGen Rearranged (.list (defs.map definitionVal)) v' ∧
    v' = .list [] ∧ ∃ t defs', weedleParse t = .ok defs' ∧ v' = .list (defs'.map definitionVal) := by
  refine ⟨[.enum none c!"A" [c!"b"]], .list [], rfl, ?_, rfl, c!"", [], rfl, rfl⟩
  have h1 : Rearranged (.list ([.enum none c!"A" [c!"b"]].map definitionVal)) (.list [definitionVal (.enum none c!"A" [])]) :=
    .list (vs := []) (.variant (.struct (vs := [_, _, _]) (.struct (vs := [_]) (.struct (vs := []) (.here (ws := []) (by simp))))))
  exact .tail (.single h1) (.here (by simp))

/-- The values of an enum in the other order, the first of them twice. -/
example : ∃ defs v', weedleParse c!"enum A{\"b\",\"c\"};" = .ok defs ∧ Rearranged (.list (defs.map definitionVal)) v' ∧
    v' = .list ([.enum none c!"A" [c!"c", c!"b", c!"b"]].map definitionVal) ∧
    ∃ t defs', weedleParse t = .ok defs' ∧ v' = .list (defs'.map definitionVal) := by
  refine ⟨[.enum none c!"A" [c!"b", c!"c"]], _, rfl, .list (vs := []) (.variant (.struct (vs := [_, _, _]) (.struct (vs := [_])
    (.struct (vs := []) (.here (ws := ?_) ?_))))), ?_, c!"enum A{\"c\",\"b\",\"b\"};", _, rfl, ?_⟩
  rotate_left 2
  · rfl
  · rfl
  · intro w hw
    simp only [List.map_cons, List.map_nil, List.mem_cons, List.not_mem_nil, or_false] at hw ⊢
    rcases hw with h | h | h <;> simp [h]

/-- The condition is needed: an enum without values is not a result. -/
theorem C84_last : ∃ s defs v', weedleParse s = .ok defs ∧ Rearranged (.list (defs.map definitionVal)) v' ∧
    ¬ ∃ t defs', weedleParse t = .ok defs' ∧ v' = .list (defs'.map definitionVal) := by
  refine ⟨c!"enum A{\"b\"};", [.enum none c!"A" [c!"b"]], .list [definitionVal (.enum none c!"A" [])], rfl,
    .list (vs := []) (.variant (.struct (vs := [_, _, _]) (.struct (vs := [_]) (.struct (vs := []) (.here (ws := []) (by simp)))))), ?_⟩
  rintro ⟨t, defs', h, e⟩
  refine ((C84_document (v' := .list [definitionVal (.enum none c!"A" [])]) (s := c!"enum A{\"b\"};") (defs := [.enum none c!"A" [c!"b"]]) rfl
    (.list (vs := []) (.variant (.struct (vs := [_, _, _]) (.struct (vs := [_]) (.struct (vs := []) (.here (ws := []) (by simp)))))))).1
    ⟨t, defs', h, e⟩) _ (.list (List.mem_singleton.2 rfl) (.variant (.struct (x := c!"values") (.tail _ (.tail _ (.tail _ (.head _))))
      (.struct (x := c!"body") (.tail _ (.head _)) .refl)))) rfl

end Verif.Properties
