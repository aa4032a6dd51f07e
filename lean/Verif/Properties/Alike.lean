import Verif.Spec.Alike
import Verif.Proof.LinkParse
import Verif.Proof.Total
import Verif.Proof.Lexer
import Verif.Properties.Source
import Verif.Properties.Robustness
import Verif.Properties.Names

/-!
# C59: names, strings and numbers are opaque
-/

namespace Verif.Properties
open Nom Spec Source

/-- Every parser of the source returns. -/
theorem C59_returns {ds : List Decl} (hd : readSource = some ds) {T : RTy} (hT : WellFormed ds T) (s : Str) :
    ∃ x, Returns T s x ∧ x ≠ .diverge := by
  obtain ⟨α, g, v, h⟩ := C48_types hd hT
  refine ⟨_, C48_parser h s, fun e => ?_⟩
  have := Links.returns_of h s
  cases e' : g.parse s with
  | diverge => exact this e'
  | ok => rw [e'] at e; cases e
  | err => rw [e'] at e; cases e

example : WellFormed decls (.path2 c!"Punctuated" (.path1 c!"Option" (.path0 c!"Type")) (.path0 c!"Comma")) := by
  refine ⟨⟨_, List.mem_of_find?_eq_some find_Punctuated, rfl, rfl⟩, ⟨⟨_, List.mem_of_find?_eq_some find_Option, rfl, rfl⟩, by decide,
    ⟨_, List.mem_of_find?_eq_some find_Type, rfl, rfl⟩⟩, ⟨by decide, _, List.mem_of_find?_eq_some (Links.find_punct .comma), rfl, rfl⟩,
    fun _ => .inl ⟨.comma, rfl⟩⟩

/-- On texts that consist of items of the same kinds, every parser does the same: it accepts both or rejects both, leaves
corresponding rests, and the values differ at most in the contents of names, strings and numbers, where these differ in the
texts. -/
theorem C59_type {Q : ItemKind → Str → Str → Prop} {ds : List Decl} (hd : readSource = some ds) {T : RTy} (hT : WellFormed ds T)
    (hw : WholeItems T) {s t : Str} (h : AlikeTexts Q s t) :
    ∃ x y, Returns T s x ∧ Returns T t y ∧ AlikeResults Q s t x y := by
  obtain ⟨x, h1, hx⟩ := C59_returns hd hT s
  obtain ⟨y, h2, hy⟩ := C59_returns hd hT t
  refine ⟨x, y, h1, h2, ?_⟩
  obtain ⟨ds1, hd1, N, hN⟩ := h1
  obtain ⟨ds2, hd2, M, hM⟩ := h2
  obtain rfl : decls = ds1 := by simpa [readSource_eq] using hd1
  obtain rfl : decls = ds2 := by simpa [readSource_eq] using hd2
  have := (Links.link_parse (Q := Q) (max N M) T (Links.wholeB_iff.2 hw)).at_ h
  rw [hN _ (by omega), hM _ (by omega)] at this
  cases this with
  | left => exact absurd rfl hx
  | right => exact absurd rfl hy
  | ok h1 h2 h3 => exact .ok h1 h2 h3
  | err => exact .err

theorem blank_alike {Q : ItemKind → Str → Str → Prop} {r : Str} (h : AlikeTexts Q [] r) : strip r = [] := by
  cases Links.heads h with
  | nil _ h => exact h
  | @cons w e _ _ h _ hw =>
    have h : w ++ e = [] := h.symm
    exact absurd (List.append_eq_nil_iff.1 h).1 (item_ne_nil hw)

/-- `weedle::parse`, when it returns definitions: it also returns on the other text, and the result is the same, except for
the contents of names, strings and numbers. -/
theorem C59_ok {Q : ItemKind → Str → Str → Prop} {s t : Str} (h : AlikeTexts Q s t) {ds : List Definition}
    (hs : weedleParse s = .ok ds) (hne : ds ≠ []) :
    ∃ ds', weedleParse t = .ok ds' ∧ Like Q (.list (ds.map definitionVal)) (.list (ds'.map definitionVal)) := by
  obtain ⟨x, y, h1, h2, h3⟩ := C59_type (ds := decls) readSource_eq (T := .path0 c!"Definitions")
    ⟨by decide, _, List.mem_of_find?_eq_some find_Definitions, rfl, rfl⟩ (show _ ∉ _ by decide) h
  obtain rfl := C48_function h1 (((C48_parse s).1 ds).1 hs)
  have h4 := C48_parser .definitions t
  obtain rfl := C48_function h2 h4
  cases e : G.definitions.parse t with
  | err => rw [e] at h3; cases h3
  | diverge => rw [e] at h3; cases h3
  | ok r ds' =>
    rw [e] at h3
    cases h3 with
    | ok h5 h6 h7 =>
      refine ⟨ds', (C03_ok_iff _ _).2 ?_, h6⟩
      have hn : s ≠ [] := by
        rintro rfl
        rw [C04_empty] at hs
        cases hs
        exact hne rfl
      have h8 := C16_remainder (.vec .definition) _ _ _ e fun h => hn (h7.2 h).symm
      have h9 := blank_alike h5
      rw [noTrivia_iff] at h8
      rw [e, ← h9, h8]

/-- Whether `weedle::parse` panics depends only on the kinds of the items, except that it does not on the empty text. -/
theorem C59_panic {Q : ItemKind → Str → Str → Prop} {s t : Str} (h : AlikeTexts Q s t) (hst : s = [] ↔ t = []) :
    weedleParse s = .panic ↔ weedleParse t = .panic := by
  have key : ∀ {Q : ItemKind → Str → Str → Prop} {s t : Str}, AlikeTexts Q s t → (s = [] → t = []) → weedleParse t = .panic →
      weedleParse s = .panic := by
    intro Q s t h hst ht
    rcases C02_never_err s with ⟨ds, h1⟩ | h1
    · by_cases hd : ds = []
      · subst hd
        rcases document_iff.1 h1 with ⟨-, h2⟩ | ⟨h2, -⟩
        · rw [hst h2, C04_empty] at ht
          cases ht
        · exact absurd rfl h2
      · obtain ⟨ds', h2, -⟩ := C59_ok h h1 hd
        rw [ht] at h2
        cases h2
    · exact h1
  exact ⟨key (Links.alikeTexts_symm h) hst.2, key h hst.1⟩

/-- All contents may be replaced. -/
def anything : ItemKind → Str → Str → Prop := fun _ _ _ => True

theorem alike_decimal {w w' : Str} (h : charLeaf Str .dec w = .ok [] w) (h' : charLeaf Str .dec w' = .ok [] w') :
    Alike anything w w' := by
  obtain ⟨_, _, -, h1, -⟩ := charLeaf_ok_iff.1 h
  obtain ⟨_, _, -, h2, -⟩ := charLeaf_ok_iff.1 h'
  exact .content (k := .decimal) ⟨h1.2, rfl⟩ ⟨h2.2, rfl⟩ trivial

theorem alike_float {w w' : Str} (h : charLeaf Str .float w = .ok [] w) (h' : charLeaf Str .float w' = .ok [] w') :
    Alike anything w w' := by
  obtain ⟨_, _, -, h1, -⟩ := charLeaf_ok_iff.1 h
  obtain ⟨_, _, -, h2, -⟩ := charLeaf_ok_iff.1 h'
  exact .content (k := .float) ⟨h1.2, rfl⟩ ⟨h2.2, rfl⟩ trivial

theorem alike_name {w w' : Str} (h : isFree w = true) (h' : isFree w' = true) : Alike anything w w' :=
  .content (k := .name) ⟨(isFree_sound h).1, .inl rfl, (isFree_sound h).2⟩ ⟨(isFree_sound h').1, .inl rfl, (isFree_sound h').2⟩ trivial

theorem alike_string {v v' : Str} (h : '"' ∉ v) (h' : '"' ∉ v') : Alike anything ('"' :: v ++ ['"']) ('"' :: v' ++ ['"']) :=
  .content (k := .string) ⟨h, rfl⟩ ⟨h', rfl⟩ trivial

theorem alike_example : AlikeTexts anything c!"interface A { const long x = 12; };" c!"/**/interface Thing{const long A=7;};" := by
  refine ⟨[c!"interface", c!"A", c!"{", c!"const", c!"long", c!"x", c!"=", c!"12", c!";", c!"}", c!";"],
    [c!"interface", c!"Thing", c!"{", c!"const", c!"long", c!"A", c!"=", c!"7", c!";", c!"}", c!";"],
    lexes_sound (by decide +kernel), lexes_sound (by decide +kernel), ?_⟩
  exact .cons .same (.cons (alike_name (by decide +kernel) (by decide +kernel)) (.cons .same (.cons .same (.cons .same (.cons
    (alike_name (by decide +kernel) (by decide +kernel)) (.cons .same (.cons
    (alike_decimal rfl rfl) (.cons .same (.cons .same (.cons .same .nil))))))))))

example : ∃ ds', weedleParse c!"/**/interface Thing{const long A=7;};" = .ok ds' ∧ Like anything
    (.list [definitionVal (.interface none c!"A" none [.const ⟨none, .integer (.long false) false, c!"x", .integer (.dec c!"12")⟩])])
    (.list (ds'.map definitionVal)) :=
  C59_ok alike_example (s := c!"interface A { const long x = 12; };") rfl (by simp)

/-- It is not so for the types that are excluded: the kinds do not say where a part of a number ends. -/
theorem C59_integer : AlikeTexts anything c!"1.5" c!".5" ∧
    Returns (.path0 c!"IntegerLit") c!"1.5" (.ok c!".5" (.variant c!"IntegerLit" c!"Dec" (.newtype c!"DecLit" (.str c!"1")))) ∧
    ∃ e, Returns (.path0 c!"IntegerLit") c!".5" (.err e) := by
  exact ⟨⟨[c!"1.5"], [c!".5"], lexes_sound (by decide +kernel), lexes_sound (by decide +kernel), .cons 
    (alike_float rfl rfl) .nil⟩, C48_parser .integerLit c!"1.5", _, C48_parser .integerLit c!".5"⟩

end Verif.Properties
