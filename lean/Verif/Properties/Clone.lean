import Verif.Source.CloneProof
import Verif.Source.PrettyProof
import Verif.Properties.Debug

/-!
# C64: copies and default values; C60: what is printed by `{:#?}`

`Val.clone` and `DefaultOf` are in `Verif/Source/Clone.lean`, `Val.pretty` is in `Verif/Source/Pretty.lean`.
-/

namespace Verif.Properties
open Nom Source Spec Source.Printed Source.Cloned

/-- A copy is the same value: `==` holds, and it is printed and hashed alike. -/
theorem C64_clone {is : List Item} (hi : expandSource = some is) {T : RTy} {a : Val} (ha : HasType is T a) (printable : Char → Bool) :
    a.clone = a ∧ a.eq a.clone = some true ∧ a.cmp is a.clone = some .eq ∧ a.clone.debug printable = a.debug printable ∧
    a.clone.feed is = a.feed is := by
  obtain ⟨o, h1, -, h2, h3⟩ := C52_total hi ha ha
  obtain rfl := h2.mpr rfl
  rw [clone_eq]
  exact ⟨rfl, h3, h1, rfl, rfl⟩

set_option maxRecDepth 10000 in
example : ∃ is ds, expandSource = some is ∧ weedleParse c!"A includes B;" = .ok ds ∧
    HasType is (.path0 c!"Definitions") (.list (ds.map definitionVal)) :=
  ⟨_, _, expandSource_eq, rfl, C51_document expandSource_eq c!"A includes B;" _ rfl⟩

/-- A default value is a value of the type, and the type has no other default value. -/
theorem C64_default {is : List Item} (hi : expandSource = some is) {T : RTy} {a : Val} (ha : DefaultOf is T a) :
    HasType is T a ∧ ∀ b, DefaultOf is T b → b = a := by
  rw [expandSource_eq] at hi
  cases hi
  exact ⟨ha.hasType, fun b hb => blank_unique (twins unique hb.hasType ha.hasType) hb.blank ha.blank⟩

/-- `Option<Comma>` and `Comma` -/
example : ∃ is, expandSource = some is ∧ DefaultOf is (.path1 c!"Option" (.path0 c!"Comma")) .none ∧
    DefaultOf is (.path0 c!"Comma") (.token c!"Comma") := by
  have h : Item.unit c!"Comma" ∈ crateItems := types_mem _ (by decide +kernel)
  exact ⟨crateItems, expandSource_eq, .option, .token (unit_default h) h⟩

/-- `default()` of a type that derives `Default` returns if it does for the arguments of the type. -/
theorem C64_total {is : List Item} (hi : expandSource = some is) {T : RTy} {ps : List Str} {ts : List RTy}
    (hc : Components is T.name ps ts) (hd : Derives is c!"Default" T.name) (hl : ps.length = T.args.length)
    (ha : ∀ u ∈ T.args, ∃ v, DefaultOf is u v) : ∃ v, DefaultOf is T v := by
  rw [expandSource_eq] at hi
  cases hi
  exact default_exists hc hd hl ha

/-- `Braced<Comma>` -/
example : ∃ is, expandSource = some is ∧
    Components is c!"Braced" [c!"T"] [.path0 c!"OpenBrace", .path0 c!"T", .path0 c!"CloseBrace"] ∧
    Derives is c!"Default" c!"Braced" ∧ ∃ v, DefaultOf is (.path1 c!"Braced" (.path0 c!"Comma")) v := by
  have h : Item.struct c!"Braced" [c!"T"] [(c!"open_brace", .path0 c!"OpenBrace"), (c!"body", .path0 c!"T"),
      (c!"close_brace", .path0 c!"CloseBrace")] ∈ crateItems := by decide +kernel
  have hd : Derives crateItems c!"Default" c!"Braced" := mem_traitsOf.mp (by decide +kernel)
  have h1 : Item.unit c!"Comma" ∈ crateItems := types_mem _ (by decide +kernel)
  refine ⟨crateItems, expandSource_eq, .struct h, hd, C64_total expandSource_eq (T := .path1 c!"Braced" (.path0 c!"Comma")) (.struct h) hd rfl ?_⟩
  intro u hu
  obtain rfl := List.mem_singleton.mp hu
  exact ⟨_, .token (unit_default h1) h1⟩

/-- The default value of a terminal is its only value: what is stored in a list as the separator is what was parsed. -/
theorem C64_terminal {is : List Item} (hi : expandSource = some is) {n : Str} (h : .unit n ∈ is) {a : Val}
    (ha : HasType is (.path0 n) a) : DefaultOf is (.path0 n) a := by
  rw [expandSource_eq] at hi
  cases hi
  have hd : DefaultOf crateItems (.path0 n) (.token n) := .token (unit_default h) h
  have := twins unique ha hd.hasType
  cases this
  exact hd

example : ∃ is, expandSource = some is ∧ .unit c!"Comma" ∈ is ∧ HasType is (.path0 c!"Comma") (.token c!"Comma") := by
  have h : Item.unit c!"Comma" ∈ crateItems := types_mem _ (by decide +kernel)
  exact ⟨crateItems, expandSource_eq, h, .token h⟩

/-- The default values of the types that stand for a fixed text are what is parsed from this text. -/
theorem C64_parsed {is : List Item} (hi : expandSource = some is) :
    (∃ v, DefaultOf is (.path0 c!"EmptyArrayLit") v ∧ ExpandedReturns (.path0 c!"EmptyArrayLit") c!"[]" (.ok [] v)) ∧
    (∃ v, DefaultOf is (.path0 c!"EmptyDictionaryLit") v ∧ ExpandedReturns (.path0 c!"EmptyDictionaryLit") c!"{}" (.ok [] v)) ∧
    (∃ v, DefaultOf is (.path0 c!"StringifierMember") v ∧
      ExpandedReturns (.path0 c!"StringifierMember") c!"stringifier;" (.ok [] v)) := by
  rw [expandSource_eq] at hi
  cases hi
  refine ⟨⟨_, ?_, C50_parser .emptyArrayLit c!"[]"⟩, ⟨_, ?_, C50_parser .emptyDictionaryLit c!"{}"⟩,
    ⟨_, ?_, C50_parser .stringifierMember c!"stringifier;"⟩⟩
  · have h : Item.struct c!"EmptyArrayLit" [] [(c!"open_bracket", .path0 c!"OpenBracket"),
        (c!"close_bracket", .path0 c!"CloseBracket")] ∈ crateItems := by decide +kernel
    have h1 : Item.unit c!"OpenBracket" ∈ crateItems := types_mem _ (by decide +kernel)
    have h2 : Item.unit c!"CloseBracket" ∈ crateItems := types_mem _ (by decide +kernel)
    refine .struct (T := .path0 c!"EmptyArrayLit") (mem_traitsOf.mp (by decide +kernel)) h rfl rfl fun p hp => ?_
    simp only [List.zip_cons_cons, List.zip_nil_right, List.mem_cons, List.not_mem_nil, or_false] at hp
    rcases hp with rfl | rfl
    · exact .token (unit_default h1) h1
    · exact .token (unit_default h2) h2
  · have h : Item.struct c!"EmptyDictionaryLit" [] [(c!"open_brace", .path0 c!"OpenBrace"),
        (c!"close_brace", .path0 c!"CloseBrace")] ∈ crateItems := by decide +kernel
    have h1 : Item.unit c!"OpenBrace" ∈ crateItems := types_mem _ (by decide +kernel)
    have h2 : Item.unit c!"CloseBrace" ∈ crateItems := types_mem _ (by decide +kernel)
    refine .struct (T := .path0 c!"EmptyDictionaryLit") (mem_traitsOf.mp (by decide +kernel)) h rfl rfl fun p hp => ?_
    simp only [List.zip_cons_cons, List.zip_nil_right, List.mem_cons, List.not_mem_nil, or_false] at hp
    rcases hp with rfl | rfl
    · exact .token (unit_default h1) h1
    · exact .token (unit_default h2) h2
  · have h : Item.struct c!"StringifierMember" [] [(c!"attributes", .path1 c!"Option" (.path0 c!"ExtendedAttributeList")),
        (c!"stringifier", .path0 c!"Stringifier"), (c!"semi_colon", .path0 c!"SemiColon")] ∈ crateItems := by decide +kernel
    have h1 : Item.unit c!"Stringifier" ∈ crateItems := types_mem _ (by decide +kernel)
    have h2 : Item.unit c!"SemiColon" ∈ crateItems := types_mem _ (by decide +kernel)
    refine .struct (T := .path0 c!"StringifierMember") (mem_traitsOf.mp (by decide +kernel)) h rfl rfl fun p hp => ?_
    simp only [List.zip_cons_cons, List.zip_nil_right, List.mem_cons, List.not_mem_nil, or_false] at hp
    rcases hp with rfl | rfl | rfl
    · exact .option
    · exact .token (unit_default h1) h1
    · exact .token (unit_default h2) h2

/-- Two values of a type are printed alike by `{:#?}` exactly if they are the same. -/
theorem C60_pretty {is : List Item} (hi : expandSource = some is) {T : RTy} {a b : Val} (ha : HasType is T a) (hb : HasType is T b)
    (printable : Char → Bool) : a.pretty printable = b.pretty printable ↔ a = b := by
  rw [expandSource_eq] at hi
  cases hi
  refine ⟨fun h => ?_, fun h => by rw [h]⟩
  rw [pretty_eq worded fielded printable ha, pretty_eq worded fielded printable hb] at h
  exact (prettyAt_splits worded printable (twins unique ha hb) 0 [] [] (by rw [h])).1

set_option maxRecDepth 10000 in
example : ∃ is ds, expandSource = some is ∧ weedleParse c!"A includes B;" = .ok ds ∧
    HasType is (.path0 c!"Definitions") (.list (ds.map definitionVal)) ∧
    (Val.list (ds.map definitionVal)).pretty (fun _ => true) =
    c!"[\n    IncludesStatement(\n        IncludesStatementDefinition {\n            attributes: None,\n            lhs_identifier: Identifier(\n                \"A\",\n            ),\n            includes: Includes,\n            rhs_identifier: Identifier(\n                \"B\",\n            ),\n            semi_colon: SemiColon,\n        },\n    ),\n]" :=
  ⟨_, _, expandSource_eq, rfl, C51_document expandSource_eq c!"A includes B;" _ rfl, by decide +kernel⟩

end Verif.Properties
