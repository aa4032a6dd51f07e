import Verif.Spec.Size
import Verif.Spec.Nesting
import Verif.Proof.SizeOf
import Verif.Proof.DepthOf
import Verif.Proof.DepthNeeded
import Verif.Properties.Source
import Verif.Properties.Grammar

/-!
# C57: the result is not larger than the text, and not deeper than its brackets
-/

namespace Verif.Properties
open Nom Spec Source

/-- The result of `weedle::parse` consists of at most ten values for each character of the text. -/
theorem C57_document {s : Str} {ds : List Definition} (h : weedleParse s = .ok ds) :
    (Val.list (ds.map definitionVal)).size ≤ 10 * s.length + 1 := by
  obtain ⟨ls, h1, h2⟩ := snd_definitions exact_char.toStepping ntSound_char _ _ _ (weedleParse_ok_iff.1 h)
  have h3 := Sizes.reads_length h1 (Sizes.nonempty_of_good (allGood_definitions ds ls h2))
  have h4 := Sizes.heavy_definitions ds ls h2
  simp
  omega

example : (Val.list ([Definition.typedef none (.mk none (.union [.single none (.builtin .object true)] true)) c!"x"].map
    definitionVal)).size = 28 ∧ c!"typedef (object?)? x;".length = 21 ∧
    weedleParse c!"typedef (object?)? x;" =
      .ok [.typedef none (.mk none (.union [.single none (.builtin .object true)] true)) c!"x"] := by
  refine ⟨by decide +kernel, rfl, rfl⟩

/-- The result of `T::parse`, for all types: its size is at most linear in the length of the text that is read. -/
theorem C57_type {decls : List Decl} (hd : readSource = some decls) {T : RTy} (hT : WellFormed decls T) :
    ∃ c, ∀ s r v, Returns T s (.ok r v) → v.size ≤ c * (s.length - r.length) + c := by
  obtain ⟨α, g, f, h⟩ := C48_types hd hT
  obtain ⟨c, hc⟩ := Sizes.sized h
  refine ⟨c, fun s r v hr => ?_⟩
  have e := C48_function (C48_parser h s) hr
  cases e' : g.parse s with
  | ok r' a =>
    rw [e'] at e
    cases e
    obtain ⟨d, h1, h2⟩ := hc _ _ _ e'
    rwa [show s.length - r.length = d by omega]
  | err x => rw [e'] at e; cases e
  | diverge => rw [e'] at e; cases e

example : ∃ c, ∀ s r v, Returns (.path1 c!"Vec" (.path0 c!"Definition")) s (.ok r v) → v.size ≤ c * (s.length - r.length) + c :=
  C57_type readSource_eq ⟨⟨.fn c!"Vec" [c!"T"] (.many0 (.weedle (.path0 c!"T"))), by decide +kernel, rfl, rfl⟩, by decide,
    ⟨_, List.mem_of_find?_eq_some find_Definition, rfl, rfl⟩⟩

/-- The result of `weedle::parse` is at most twelve values deep for each open bracket `(` or `<`. -/
theorem C57_depth {s : Str} {ds : List Definition} (h : weedleParse s = .ok ds) :
    (Val.list (ds.map definitionVal)).depth ≤ 12 * nest s + 17 := by
  obtain ⟨ls, h1, h2⟩ := snd_definitions exact_char.toStepping ntSound_char _ _ _ (weedleParse_ok_iff.1 h)
  have h3 := Depths.reads_nest h1 (Depths.nest_lexeme (allGood_definitions ds ls h2))
  have h4 := Depths.deep_definitions ds ls h2 (nest [])
  simp
  omega

example : (Val.list ([Definition.typedef none (.mk none (.union [.single none (.builtin .object true)] true)) c!"x"].map
    definitionVal)).depth = 15 ∧ nest c!"typedef (object?)? x;" = 1 := by
  decide +kernel

/-- The result of `T::parse`, for all types except those made with single closing brackets: it is at most twelve values
deep for each open bracket. -/
theorem C57_type_depth {decls : List Decl} (hd : readSource = some decls) {T : RTy} (hT : WellFormed decls T)
    (h1 : T.Without c!"CloseParen") (h2 : T.Without c!"GreaterThan") :
    ∃ c, ∀ s r v, Returns T s (.ok r v) → v.depth ≤ 12 * nest s + c := by
  obtain ⟨α, g, f, h⟩ := C48_types hd hT
  obtain ⟨c, hc⟩ := Depths.nested h h1 h2
  refine ⟨c, fun s r v hr => ?_⟩
  have e := C48_function (C48_parser h s) hr
  cases e' : g.parse s with
  | ok r' a =>
    rw [e'] at e
    cases e
    exact (hc _ _ _ e').2
  | err x => rw [e'] at e; cases e
  | diverge => rw [e'] at e; cases e

example : ∃ c, ∀ s r v, Returns (.path1 c!"Vec" (.path0 c!"Definition")) s (.ok r v) → v.depth ≤ 12 * nest s + c :=
  C57_type_depth readSource_eq ⟨⟨.fn c!"Vec" [c!"T"] (.many0 (.weedle (.path0 c!"T"))), by decide +kernel, rfl, rfl⟩, by decide,
    ⟨_, List.mem_of_find?_eq_some find_Definition, rfl, rfl⟩⟩ (by simp [RTy.Without]) (by simp [RTy.Without])

/-- The exception is needed: closing brackets read one by one leave room for any number of opening brackets that `nest` does
not count. -/
theorem C57_closing_brackets (c : Nat) :
    ∃ s r v, Returns (.path2 c!"(,)" (.path1 c!"Vec" (.path0 c!"CloseParen")) (.path0 c!"Type")) s (.ok r v) ∧
      12 * nest s + c < v.depth := by
  have h := C48_parser (.pair (.vec (.punct .closeParen)) .type) (Depths.closers c (spaced (printType (Depths.sequences c))))
  have e : (do
      let x ← G.many0 (G.punct .closeParen)
      let y ← G.type
      pure (x, y) : G _).parse (Depths.closers c (spaced (printType (Depths.sequences c)))) =
        .ok [] (List.replicate c (), Depths.sequences c) :=
    Sizes.parse_bind.2 ⟨_, _, Depths.closers_parse c (Depths.sequences_head c),
      Sizes.parse_bind.2 ⟨_, _, Depths.sequences_parse c, rfl⟩⟩
  rw [e] at h
  refine ⟨_, _, _, h, ?_⟩
  have h1 := Depths.sequences_nest c []
  have h2 := Depths.closers_nest c (spaced (printType (Depths.sequences c)))
  have h3 := Depths.sequences_depth c
  have h4 : nest [] = 0 := rfl
  rw [List.append_nil] at h1
  simp only [Depths.depth_pair]
  omega

end Verif.Properties
