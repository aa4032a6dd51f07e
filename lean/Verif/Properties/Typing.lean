import Verif.Source.TypeCheck
import Verif.Properties.Expand
import Verif.Properties.Normal

/-!
# C51: parsers return values of their types; C52: what is derived for the types

`HasType is T v` (`Verif/Source/Typing.lean`): `v` is a value of `T`, by the struct, enum and type items of the expanded
crate. `Val.cmp` and `Val.eq` (`Verif/Source/Derive.lean`): the derived comparisons.
-/

namespace Verif.Properties
open Nom Source Spec

/-! ## C51 -/

/-- What `T::parse` returns is a value of the type `T`: every struct has its declared fields, in the declared order, every
enum one of its declared variants, and so on down to strings and unit structs. -/
theorem C51_typed {is : List Item} {ds : List Decl} (hi : expandSource = some is) (hd : readSource = some ds) {T : RTy}
    (hT : WellFormed ds T) {s r : Str} {v : Val} (h : ExpandedReturns T s (.ok r v)) : HasType is T v := by
  rw [readSource_eq] at hd
  cases hd
  obtain ⟨is', hi', N, hN⟩ := h
  rw [hi] at hi'
  cases hi'
  have := hN N (Nat.le_refl _)
  rw [C50_same readSource_eq hi] at this
  rw [expandSource_eq] at hi
  cases hi
  exact (parse_sound checked N).1 T (okTy_of_wellFormed hT) s r v this

example : ∃ is v, expandSource = some is ∧ WellFormed decls (.path0 c!"Default") ∧
    ExpandedReturns (.path0 c!"Default") c!"= null x" (.ok c!"x" v) ∧ HasType is (.path0 c!"Default") v ∧
    ¬ HasType is (.path0 c!"Identifier") v := by
  have w : WellFormed decls (.path0 c!"Default") := ⟨by decide, by decide +kernel⟩
  have h := C50_parser .default c!"= null x"
  refine ⟨crateItems, _, expandSource_eq, w, h, C51_typed expandSource_eq readSource_eq w h, ?_⟩
  intro h'
  cases h' with
  | alias ha _ =>
    have hn : Item.tuple c!"Identifier" [] (.path0 c!"&str") ∈ crateItems := by
      refine types_mem _ ?_
      decide +kernel
    cases unique.uniq _ ha _ hn _ rfl rfl

/-- The result of `weedle::parse` is a value of the type `Definitions`. -/
theorem C51_document {is : List Item} (hi : expandSource = some is) (s : Str) (ds : List Definition)
    (h : weedleParse s = .ok ds) : HasType is (.path0 c!"Definitions") (.list (ds.map definitionVal)) := by
  have w : WellFormed decls (.path0 c!"Definitions") := ⟨by decide, by decide +kernel⟩
  refine C51_typed hi readSource_eq w (s := s) (r := []) ?_
  have h' := C50_parser .definitions s
  unfold weedleParse at h
  cases e : G.definitions.parse s with
  | ok r as =>
    rw [e] at h h'
    cases r with
    | nil => cases h; exact h'
    | cons c r => cases h
  | err x => rw [e] at h; cases h
  | diverge => rw [e] at h; cases h

set_option maxRecDepth 10000 in
example : ∃ is ds, expandSource = some is ∧ weedleParse c!"enum E { \"a\" }; A includes B;" = .ok ds ∧ ds.length = 2 ∧
    HasType is (.path0 c!"Definitions") (.list (ds.map definitionVal)) :=
  ⟨_, _, expandSource_eq, rfl, rfl, C51_document expandSource_eq c!"enum E { \"a\" }; A includes B;" _ rfl⟩

/-! ## C52 -/

/-- Any two values of a type can be compared; the comparison the other way round is the opposite; `Equal` is the result
exactly for the same values, and exactly when `==` holds. -/
theorem C52_total {is : List Item} (hi : expandSource = some is) {T : RTy} {a b : Val} (ha : HasType is T a)
    (hb : HasType is T b) : ∃ o, a.cmp is b = some o ∧ b.cmp is a = some o.swap ∧ (o = .eq ↔ a = b) ∧
      a.eq b = some (o == .eq) := by
  rw [expandSource_eq] at hi
  cases hi
  obtain ⟨o, ho⟩ := compares unique ha hb
  obtain ⟨o', ho'⟩ := compares unique hb ha
  have e : dictionary (a.word crateItems) (b.word crateItems) = o := by simpa [dictionary] using ho.word [] []
  have e' : dictionary (b.word crateItems) (a.word crateItems) = o' := by simpa [dictionary] using ho'.word [] []
  refine ⟨o, ho.cmp, ?_, ⟨ho.same, fun h => ?_⟩, ho.eq⟩
  · rw [ho'.cmp, ← e', ← e, dictionary_swap]
  · rw [← e, h]; exact dictionary_eq.mpr rfl

/-- `Float` comes before `Double` in the declaration. -/
example : ∃ is a b, expandSource = some is ∧ ExpandedReturns (.path0 c!"FloatingPointType") c!"float" (.ok [] a) ∧
    ExpandedReturns (.path0 c!"FloatingPointType") c!"unrestricted double" (.ok [] b) ∧
    HasType is (.path0 c!"FloatingPointType") a ∧ HasType is (.path0 c!"FloatingPointType") b ∧ a.cmp is b = some .lt := by
  have w : WellFormed decls (.path0 c!"FloatingPointType") := ⟨by decide, by decide +kernel⟩
  have h := C50_parser .floatingPointType c!"float"
  have h' := C50_parser .floatingPointType c!"unrestricted double"
  exact ⟨crateItems, _, _, expandSource_eq, h, h', C51_typed expandSource_eq readSource_eq w h,
    C51_typed expandSource_eq readSource_eq w h', by decide +kernel⟩

/-- The comparison is transitive. -/
theorem C52_trans {is : List Item} (hi : expandSource = some is) {T : RTy} {a b c : Val} (ha : HasType is T a)
    (hb : HasType is T b) (hc : HasType is T c) (h : a.cmp is b = some .lt) (h' : b.cmp is c = some .lt) :
    a.cmp is c = some .lt := by
  rw [expandSource_eq] at hi
  cases hi
  obtain ⟨o, ho⟩ := compares unique ha hb
  obtain ⟨o', ho'⟩ := compares unique hb hc
  obtain ⟨o'', ho''⟩ := compares unique ha hc
  have e : dictionary (a.word crateItems) (b.word crateItems) = o := by simpa [dictionary] using ho.word [] []
  have e' : dictionary (b.word crateItems) (c.word crateItems) = o' := by simpa [dictionary] using ho'.word [] []
  have e'' : dictionary (a.word crateItems) (c.word crateItems) = o'' := by simpa [dictionary] using ho''.word [] []
  rw [ho.cmp] at h
  rw [ho'.cmp] at h'
  cases h
  cases h'
  rw [ho''.cmp, ← e'', dictionary_trans e e']

example : ∃ is, expandSource = some is ∧ HasType is (.path0 c!"Identifier") (.newtype c!"Identifier" (.str c!"a")) ∧
    HasType is (.path0 c!"Identifier") (.newtype c!"Identifier" (.str c!"ab")) ∧
    HasType is (.path0 c!"Identifier") (.newtype c!"Identifier" (.str c!"b")) ∧
    (Val.newtype c!"Identifier" (.str c!"a")).cmp is (.newtype c!"Identifier" (.str c!"ab")) = some .lt ∧
    (Val.newtype c!"Identifier" (.str c!"ab")).cmp is (.newtype c!"Identifier" (.str c!"b")) = some .lt := by
  have h : Item.tuple c!"Identifier" [] (.path0 c!"&str") ∈ crateItems := types_mem _ (by decide +kernel)
  exact ⟨crateItems, expandSource_eq, .newtype h (.str _), .newtype h (.str _), .newtype h (.str _), by decide +kernel, by decide +kernel⟩

/-- Two results of `weedle::parse` are `==` exactly when they are the same in the model, in which all other properties
are stated. -/
theorem C52_document {is : List Item} (hi : expandSource = some is) (s s' : Str) (ds ds' : List Definition)
    (h : weedleParse s = .ok ds) (h' : weedleParse s' = .ok ds') :
    ∃ b, (Val.list (ds.map definitionVal)).eq (.list (ds'.map definitionVal)) = some b ∧ (b = true ↔ ds = ds') := by
  obtain ⟨o, -, -, h1, h2⟩ := C52_total hi (C51_document hi s ds h) (C51_document hi s' ds' h')
  refine ⟨_, h2, ?_⟩
  rw [beq_iff_eq, h1]
  exact ⟨fun e => list_inj definition_inj (Val.list.inj e), fun e => by rw [e]⟩

set_option maxRecDepth 10000 in
example : ∃ ds ds', weedleParse c!"typedef long a;" = .ok ds ∧ weedleParse c!"/**/typedef long _a;" = .ok ds' ∧
    (Val.list (ds.map definitionVal)).eq (.list (ds'.map definitionVal)) = some true :=
  ⟨_, _, rfl, rfl, by decide +kernel⟩

/-- `Clone`, `Debug`, `Eq`, `PartialEq`, `Ord`, `PartialOrd` and `Hash` are implemented for all types. -/
theorem C52_traits {is : List Item} {ds : List Decl} (hi : expandSource = some is) (hd : readSource = some ds) {T : RTy}
    (hT : WellFormed ds T) {tr : Str}
    (h : tr ∈ [c!"Clone", c!"Debug", c!"Eq", c!"PartialEq", c!"Ord", c!"PartialOrd", c!"Hash"]) : Implements is tr T := by
  rw [readSource_eq] at hd
  rw [expandSource_eq] at hi
  cases hd
  cases hi
  exact implements_common h hT

example : ∃ is ds, expandSource = some is ∧ readSource = some ds ∧
    WellFormed ds (.path2 c!"(,)" (.path0 c!"Type") (.path1 c!"Option" (.path0 c!"Identifier"))) :=
  ⟨_, _, expandSource_eq, readSource_eq, by decide +kernel, ⟨by decide, by decide +kernel⟩,
    ⟨by decide +kernel, by decide, by decide +kernel⟩, fun h => absurd rfl h⟩

/-- The implementations that are derived can be derived: the trait is derivable, the traits that it requires are
implemented, and the types of all components implement the trait if the arguments do. -/
theorem C52_derivable {is : List Item} (hi : expandSource = some is) {n : Str} {ps : List Str} {ts : List RTy}
    (hc : Components is n ps ts) {tr : Str} (h : Derives is tr n) : tr ∈ derivable ∧
    (∀ tr' ∈ supertraits tr, Derives is tr' n) ∧
    ∀ as, as.length = ps.length → (∀ a ∈ as, Implements is tr a) → ∀ t ∈ ts, Implements is tr (t.subst (assign ps as)) := by
  rw [expandSource_eq] at hi
  cases hi
  obtain ⟨it, hit, hp⟩ := parts_of hc
  have := derives_check it hit
  simp only [derivesCheck, hp, List.all_eq_true, Bool.and_eq_true, List.contains_iff_mem] at this
  obtain ⟨⟨h1, h2⟩, h3⟩ := this tr (mem_traitsOf.mpr h)
  refine ⟨h1, fun tr' ht => mem_traitsOf.mp (h2 tr' ht), fun as hl ha t ht => ?_⟩
  refine implements?_sound types_mem aliases_mem 10 t (fun x hx => assign_none hx _) (fun x hx => ?_) (h3 t ht)
  obtain ⟨u, hu, e⟩ := assign_some hx hl.symm
  exact ⟨u, e, ha u hu⟩

example : ∃ is, expandSource = some is ∧ Components is c!"Braced" [c!"T"] [.path0 c!"OpenBrace", .path0 c!"T", .path0 c!"CloseBrace"] ∧
    Derives is c!"Copy" c!"Braced" ∧ Derives is c!"Clone" c!"Braced" := by
  refine ⟨crateItems, expandSource_eq, ?_, ?_⟩
  · have h : Item.struct c!"Braced" [c!"T"] [(c!"open_brace", .path0 c!"OpenBrace"), (c!"body", .path0 c!"T"),
        (c!"close_brace", .path0 c!"CloseBrace")] ∈ crateItems := by decide +kernel
    exact .struct h
  · have h : Derives crateItems c!"Copy" c!"Braced" := ⟨[c!"Copy", c!"Default"], types_mem _ (by decide +kernel), by decide⟩
    have hc : Derives crateItems c!"Clone" c!"Braced" := ⟨_, types_mem _ (by decide +kernel : .derive c!"Braced" stdTraits ∈ crateTypes), by decide⟩
    exact ⟨h, hc⟩

/-- The separators of lists have a default value, which is stored in the field `separator`. -/
theorem C52_separator {is : List Item} (hi : expandSource = some is) {n : Str} (h : .unit n ∈ is) : Derives is c!"Default" n := by
  rw [expandSource_eq] at hi
  cases hi
  exact unit_default h

example : ∃ is, expandSource = some is ∧ .unit c!"Comma" ∈ is :=
  ⟨crateItems, expandSource_eq, types_mem _ (by decide +kernel)⟩

end Verif.Properties
