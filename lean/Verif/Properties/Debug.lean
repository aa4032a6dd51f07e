import Verif.Source.DebugProof
import Verif.Properties.Typing

/-!
# C60: what is printed and what is hashed tells values apart

`Val.debug` (`Verif/Source/Debug.lean`) is the text printed by `{:?}`, `Val.feed` what is given to the `Hasher`. That `Debug`
and `Hash` are derived for all types is C52.
-/

namespace Verif.Properties
open Nom Source Spec Source.Printed

/-- Two values of a type are printed alike exactly if they are the same, whatever characters count as printable. -/
theorem C60_debug {is : List Item} (hi : expandSource = some is) {T : RTy} {a b : Val} (ha : HasType is T a) (hb : HasType is T b)
    (printable : Char → Bool) : a.debug printable = b.debug printable ↔ a = b := by
  rw [expandSource_eq] at hi
  cases hi
  refine ⟨fun h => ?_, fun h => by rw [h]⟩
  exact (debug_splits worded printable (twins unique ha hb) [] [] (by rw [h])).1

/-- Neither quotes nor what looks like another value can be put into a name: the names `a` and `a")` are told apart. -/
example : ∃ is, expandSource = some is ∧
    HasType is (.path0 c!"Identifier") (.newtype c!"Identifier" (.str c!"a")) ∧
    HasType is (.path0 c!"Identifier") (.newtype c!"Identifier" (.str c!"a\")")) ∧
    (Val.newtype c!"Identifier" (.str c!"a")).debug (fun _ => true) = c!"Identifier(\"a\")" ∧
    (Val.newtype c!"Identifier" (.str c!"a\")")).debug (fun _ => true) = c!"Identifier(\"a\\\")\")" := by
  have h : Item.tuple c!"Identifier" [] (.path0 c!"&str") ∈ crateItems := types_mem _ (by decide +kernel)
  exact ⟨crateItems, expandSource_eq, .newtype h (.str _), .newtype h (.str _), by decide +kernel, by decide +kernel⟩

/-- Two values of a type give the same to the `Hasher` exactly if they are the same. -/
theorem C60_hash {is : List Item} (hi : expandSource = some is) {T : RTy} {a b : Val} (ha : HasType is T a) (hb : HasType is T b) :
    a.feed is = b.feed is ↔ a = b := by
  rw [expandSource_eq] at hi
  cases hi
  refine ⟨fun h => ?_, fun h => by rw [h]⟩
  exact (feed_splits unique (twins unique ha hb) [] [] (by rw [h])).1

/-- The names `ab`, `c` and `a`, `bc` have the same letters and are told apart. -/
example : ∃ is, expandSource = some is ∧
    let pair (a b : Str) : Val := .list [.newtype c!"Identifier" (.str a), .newtype c!"Identifier" (.str b)]
    HasType is (.path1 c!"Vec" (.path0 c!"Identifier")) (pair c!"ab" c!"c") ∧
    HasType is (.path1 c!"Vec" (.path0 c!"Identifier")) (pair c!"a" c!"bc") ∧
    (pair c!"ab" c!"c").feed is = [2, 97, 98, 255, 99, 255] ∧ (pair c!"a" c!"bc").feed is = [2, 97, 255, 98, 99, 255] := by
  have h : Item.tuple c!"Identifier" [] (.path0 c!"&str") ∈ crateItems := types_mem _ (by decide +kernel)
  refine ⟨crateItems, expandSource_eq, .list ?_, .list ?_, by decide +kernel, by decide +kernel⟩ <;>
  · intro v hv
    simp only [List.mem_cons, List.not_mem_nil, or_false] at hv
    rcases hv with rfl | rfl <;> exact .newtype h (.str _)

/-- What is given to the `Hasher` for a value never begins what is given for another one of the type. -/
theorem C60_prefix {is : List Item} (hi : expandSource = some is) {T : RTy} {a b : Val} (ha : HasType is T a) (hb : HasType is T b)
    (h : a.feed is <+: b.feed is) : a = b := by
  rw [expandSource_eq] at hi
  cases hi
  obtain ⟨r, h⟩ := h
  exact (feed_splits unique (twins unique ha hb) r [] (by rw [h, List.append_nil])).1

example : ∃ is, expandSource = some is ∧ HasType is (.path1 c!"Option" (.path0 c!"bool")) .none ∧
    HasType is (.path1 c!"Option" (.path0 c!"bool")) (.some (.bool false)) ∧
    Val.none.feed is = [0] ∧ (Val.some (.bool false)).feed is = [1, 0] :=
  ⟨crateItems, expandSource_eq, .none, .some (.bool _), by decide, by decide⟩

/-- Two results of `weedle::parse` are printed alike, and give the same to the `Hasher`, exactly if they are the same. -/
theorem C60_document {is : List Item} (hi : expandSource = some is) (s s' : Str) (ds ds' : List Definition)
    (h : weedleParse s = .ok ds) (h' : weedleParse s' = .ok ds') (printable : Char → Bool) :
    ((Val.list (ds.map definitionVal)).debug printable = (Val.list (ds'.map definitionVal)).debug printable ↔ ds = ds') ∧
    ((Val.list (ds.map definitionVal)).feed is = (Val.list (ds'.map definitionVal)).feed is ↔ ds = ds') := by
  have h1 := C51_document hi s ds h
  have h2 := C51_document hi s' ds' h'
  have key : Val.list (ds.map definitionVal) = .list (ds'.map definitionVal) ↔ ds = ds' :=
    ⟨fun e => list_inj definition_inj (Val.list.inj e), fun e => by rw [e]⟩
  exact ⟨(C60_debug hi h1 h2 printable).trans key, (C60_hash hi h1 h2).trans key⟩

set_option maxRecDepth 10000 in
example : ∃ ds, weedleParse c!"A includes B;" = .ok ds ∧ (Val.list (ds.map definitionVal)).debug (fun _ => true) =
    c!"[IncludesStatement(IncludesStatementDefinition { attributes: None, lhs_identifier: Identifier(\"A\"), includes: Includes, rhs_identifier: Identifier(\"B\"), semi_colon: SemiColon })]" :=
  ⟨_, rfl, by decide +kernel⟩

/-- The printed text is one line. -/
theorem C60_line {is : List Item} (hi : expandSource = some is) {T : RTy} {a : Val} (ha : HasType is T a) (printable : Char → Bool) :
    '\n' ∉ a.debug printable ∧ '\r' ∉ a.debug printable := by
  rw [expandSource_eq] at hi
  cases hi
  exact debug_oneLine worded fielded printable ha

example : ∃ is, expandSource = some is ∧ HasType is (.path0 c!"StringLit") (.newtype c!"StringLit" (.str c!"a\nb\x01")) ∧
    (Val.newtype c!"StringLit" (.str c!"a\nb\x01")).debug (fun c => c != '\x01') = c!"StringLit(\"a\\nb\\u{1}\")" := by
  have h : Item.tuple c!"StringLit" [] (.path0 c!"&str") ∈ crateItems := types_mem _ (by decide +kernel)
  exact ⟨crateItems, expandSource_eq, .newtype h (.str _), by decide +kernel⟩

end Verif.Properties
