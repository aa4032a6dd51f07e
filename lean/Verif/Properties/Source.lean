import Verif.Source.Agree
import Verif.Source.Inj

/-!
# C48: the parsers are those of the text of the source
-/

namespace Verif.Properties
open Nom Source

/-- The text of the source can be read, and its declarations have different names. -/
theorem C48_text : ∃ ds, readSource = some ds ∧ (ds.map Decl.name).Nodup := ⟨decls, readSource_eq, names_nodup⟩

example : Decl.enum c!"FloatingPointType" [(c!"Float", .path0 c!"FloatType"), (c!"Double", .path0 c!"DoubleType")] ∈
    readSource.getD [] := by
  rw [readSource_eq]
  decide +kernel

/-- For each type, the parser that the text declares returns what the model's returns: the same rest with the
Rust value, or the same error. -/
theorem C48_parser {α : Type} {T : RTy} {g : G α} {v : α → Val} (h : TypeOf T g v) (s : Str) :
    Returns T s (resMap v (g.parse s)) := by
  obtain ⟨N, hN⟩ := h.agree s
  refine ⟨decls, readSource_eq, N, fun n hn => ?_⟩
  rw [← hN n hn]
  simp only
  cases parse decls n T s <;> rfl

example : Returns (.path0 c!"Type") c!"sequence<any>? x" (.ok c!"x"
    (.variant c!"Type" c!"Single" (.variant c!"SingleType" c!"NonAny" (.variant c!"NonAnyType" c!"Sequence"
      (.struct c!"MayBeNull" [(c!"type_", .struct c!"SequenceType" [(c!"sequence", .token c!"Sequence"),
        (c!"generics", .struct c!"Generics" [(c!"open_angle", .token c!"LessThan"),
          (c!"body", .box (.variant c!"Type" c!"Single" (.variant c!"SingleType" c!"Any" (.token c!"Any")))),
          (c!"close_angle", .token c!"GreaterThan")])]), (c!"q_mark", .some (.token c!"QMark"))]))))) :=
  C48_parser .type _

example : Returns (.path1 c!"Braced" (.path2 c!"Punctuated" (.path0 c!"DecLit") (.path0 c!"Minus"))) c!"{1 - -2}"
    (.ok [] (.struct c!"Braced" [(c!"open_brace", .token c!"OpenBrace"), (c!"body", .struct c!"Punctuated"
      [(c!"list", .list [.newtype c!"DecLit" (.str c!"1"), .newtype c!"DecLit" (.str c!"-2")]),
       (c!"separator", .token c!"Minus")]), (c!"close_brace", .token c!"CloseBrace")])) :=
  C48_parser (.braced (.punctuatedPunct .minus .decLit)) _

/-- These are all the types that can be written down with the declarations of the source. -/
theorem C48_types {ds : List Decl} (hd : readSource = some ds) {T : RTy} (h : WellFormed ds T) :
    ∃ (α : Type) (g : G α) (v : α → Val), TypeOf T g v := by
  rw [readSource_eq] at hd
  cases hd
  exact typeOf_all h

example : WellFormed decls (.path1 c!"Vec" (.path0 c!"Definition")) :=
  ⟨⟨.fn c!"Vec" [c!"T"] (.many0 (.weedle (.path0 c!"T"))), by decide +kernel, rfl, rfl⟩, by decide,
    ⟨_, List.mem_of_find?_eq_some find_Definition, rfl, rfl⟩⟩

/-- `T::parse` returns one result. -/
theorem C48_function {T : RTy} {s : Str} {x y : Res Char Val} (hx : Returns T s x) (hy : Returns T s y) : x = y := by
  obtain ⟨ds, e, N, h⟩ := hx
  obtain ⟨ds', e', N', h'⟩ := hy
  rw [e] at e'
  cases e'
  rw [← h (max N N') (by omega), h' (max N N') (by omega)]

example : ¬ Returns (.path0 c!"Identifier") c!"a" (.ok [] (.newtype c!"Identifier" (.str c!"b"))) :=
  fun h => nomatch C48_function (C48_parser .identifier c!"a") h

/-- The AST of the model keeps everything: different ASTs are different Rust values. -/
theorem C48_faithful (ds ds' : List Definition) (h : ds.map definitionVal = ds'.map definitionVal) : ds = ds' :=
  list_inj definition_inj h

example : [definitionVal (.includesStatement none c!"a" c!"b")] ≠ [definitionVal (.implements none c!"a" c!"b")] :=
  fun h => nomatch C48_faithful [_] [_] h

/-- The results of `weedle::parse` in terms of the text of the source: `Definitions::parse` is called, and what it
leaves must be empty (`/repo/src/lib.rs:83-90`). -/
theorem C48_parse (s : Str) :
    (∀ ds, weedleParse s = .ok ds ↔ Returns (.path0 c!"Definitions") s (.ok [] (.list (ds.map definitionVal)))) ∧
    (∀ e, weedleParse s = .err e ↔ Returns (.path0 c!"Definitions") s (.err e)) ∧
    (weedleParse s = .panic ↔ ∃ r v, r ≠ [] ∧ Returns (.path0 c!"Definitions") s (.ok r v)) := by
  have h := C48_parser .definitions s
  unfold weedleParse
  cases e : G.definitions.parse s with
  | ok r as =>
    simp only [e, resMap] at h
    refine ⟨fun ds => ⟨fun hp => ?_, fun hp => ?_⟩, fun x => ⟨fun hp => ?_, fun hp => nomatch C48_function h hp⟩,
      fun hp => ?_, ?_⟩
    · cases r with
      | nil =>
        simp only [List.isEmpty_nil, if_true, Outcome.ok.injEq] at hp
        rwa [hp] at h
      | cons c r => simp at hp
    · have := C48_function h hp
      simp only [Res.ok.injEq, Val.list.injEq] at this
      simp [this.1, C48_faithful _ _ this.2]
    · cases r <;> simp at hp
    · cases r with
      | nil => simp at hp
      | cons c r => exact ⟨_, _, by simp, h⟩
    · rintro ⟨r', v, hr, hp⟩
      have := C48_function h hp
      simp only [Res.ok.injEq] at this
      cases r with
      | nil => exact absurd this.1.symm hr
      | cons c r => simp
  | err x =>
    simp only [e, resMap] at h
    refine ⟨fun ds => ⟨fun hp => by simp at hp, fun hp => nomatch C48_function h hp⟩, fun y => ⟨fun hp => ?_, fun hp => ?_⟩,
      fun hp => by simp at hp, fun ⟨_, _, _, hp⟩ => nomatch C48_function h hp⟩
    · simp only [Outcome.err.injEq] at hp
      rwa [hp] at h
    · have := C48_function h hp
      simp only [Res.err.injEq] at this
      simp [this]
  | diverge =>
    simp only [e, resMap] at h
    exact ⟨fun ds => ⟨fun hp => by simp at hp, fun hp => nomatch C48_function h hp⟩,
      fun y => ⟨fun hp => by simp at hp, fun hp => nomatch C48_function h hp⟩, fun hp => by simp at hp,
      fun ⟨_, _, _, hp⟩ => nomatch C48_function h hp⟩

example : Returns (.path0 c!"Definitions") c!" a implements _b;\n" (.ok [] (.list [.variant c!"Definition" c!"Implements"
    (.struct c!"ImplementsDefinition" [(c!"attributes", .none), (c!"lhs_identifier", .newtype c!"Identifier" (.str c!"a")),
      (c!"includes", .token c!"Implements"), (c!"rhs_identifier", .newtype c!"Identifier" (.str c!"b")),
      (c!"semi_colon", .token c!"SemiColon")])])) :=
  ((C48_parse _).1 [.implements none c!"a" c!"b"]).1 rfl

end Verif.Properties
