import Verif.Proof.Normal
import Verif.Properties.Kinds

/-!
# C40, C41: what the AST says about the text
-/

namespace Verif.Properties
open Nom Spec

/-! ## C40: nothing essential is lost -/

/-- Texts with the same result consist of the same items, up to underscores in front of words and commas before
closing braces. -/
theorem C40_lossless (s s' : Str) (ls ls' : List Str) (hl : Lexes s ls) (hl' : Lexes s' ls') (ds : List Definition)
    (h : weedleParse s = .ok ds) (h' : weedleParse s' = .ok ds) : essential ls = essential ls' :=
  uniq_definitions (accepted_lexes h hl) (accepted_lexes h' hl')

example : essential [c!"enum", c!"_E", c!"{", c!"\"_a\"", c!",", c!"}", c!";"] = essential [c!"enum", c!"E", c!"{", c!"\"_a\"", c!"}", c!";"] :=
  C40_lossless c!"enum _E {\"_a\",}; /**/" c!"enum E{\"_a\"};" _ _ (lexes_sound (by decide +kernel)) (lexes_sound (by decide +kernel)) _ rfl rfl

/-- Texts that differ in anything else have different results. -/
theorem C40_distinct (s s' : Str) (ls ls' : List Str) (hl : Lexes s ls) (hl' : Lexes s' ls')
    (hne : essential ls ≠ essential ls') (ds ds' : List Definition) (h : weedleParse s = .ok ds)
    (h' : weedleParse s' = .ok ds') : ds ≠ ds' := by
  rintro rfl
  exact hne (C40_lossless s s' ls ls' hl hl' ds h h')

/-- The items of an accepted text can be recovered from its result by printing. -/
theorem C40_reprint (s : Str) (ds : List Definition) (h : weedleParse s = .ok ds) :
    ∃ ls ls', Lexes s ls ∧ Lexes (print ds) ls' ∧ essential ls = essential ls' := by
  obtain ⟨ls, hl, -⟩ := C36_lexes s ds h
  have h' := C21_reprint s ds h
  obtain ⟨ls', hl', -⟩ := C36_lexes _ ds h'
  exact ⟨ls, ls', hl, hl', C40_lossless _ _ _ _ hl hl' ds h h'⟩

example : ∃ ds ls ls', weedleParse c!"enum _E {\"_a\",}; /**/" = .ok ds ∧ weedleParse c!"enum E{\"_a\"};" = .ok ds ∧
    Lexes c!"enum _E {\"_a\",}; /**/" ls ∧ Lexes c!"enum E{\"_a\"};" ls' ∧ ls ≠ ls' ∧
    essential ls = [c!"enum", c!"E", c!"{", c!"\"_a\"", c!"}", c!";"] ∧ essential ls' = essential ls :=
  ⟨_, [c!"enum", c!"_E", c!"{", c!"\"_a\"", c!",", c!"}", c!";"], [c!"enum", c!"E", c!"{", c!"\"_a\"", c!"}", c!";"], rfl, rfl,
    lexes_sound (by decide +kernel), lexes_sound (by decide +kernel), by decide, by decide, by decide⟩

example : ∃ ds ds', weedleParse c!"typedef long a;" = .ok ds ∧ weedleParse c!"typedef [] long a;" = .ok ds' ∧ ds ≠ ds' :=
  ⟨_, _, rfl, rfl, C40_distinct c!"typedef long a;" c!"typedef [] long a;" [c!"typedef", c!"long", c!"a", c!";"]
    [c!"typedef", c!"[", c!"]", c!"long", c!"a", c!";"] (lexes_sound (by decide +kernel)) (lexes_sound (by decide +kernel))
    (by decide) _ _ rfl rfl⟩

/-! ## C41: counting -/

/-- Every semicolon of an accepted text closes one definition or one member, and the reverse. -/
theorem C41_semicolons (s : Str) (ls : List Str) (hl : Lexes s ls) (ds : List Definition) (h : weedleParse s = .ok ds) :
    ls.count c!";" = (ds.map fun d => memberCount d + 1).sum :=
  semis_definitions ds ls (accepted_lexes h hl)

example : [c!"a", c!"includes", c!"b", c!";", c!"dictionary", c!"A", c!"{", c!"b", c!"c", c!";", c!"}", c!";"].count c!";" = 1 + 2 :=
  C41_semicolons c!"a includes b; dictionary A { b c; };" _ (lexes_sound (by decide +kernel))
    [.includesStatement none c!"a" c!"b", .dictionary none c!"A" none
      [.mk none false (.single (.nonAny (.identifier c!"b" false))) c!"c" none]] rfl

/-- So there are at most as many definitions as semicolons, hence as characters. -/
theorem C41_size (s : Str) (ls : List Str) (hl : Lexes s ls) (ds : List Definition) (h : weedleParse s = .ok ds) :
    ds.length ≤ ls.count c!";" := by
  rw [C41_semicolons s ls hl ds h]
  clear h
  induction ds with
  | nil => simp
  | cons d ds ih => simp; omega

set_option maxRecDepth 10000 in
example : ∃ ds ls, weedleParse c!"interface A { void f(optional DOMString a = \";\"); const long b = 1; }; // ;\nA includes B;" = .ok ds ∧
    Lexes c!"interface A { void f(optional DOMString a = \";\"); const long b = 1; }; // ;\nA includes B;" ls ∧
    ds.map memberCount = [2, 0] ∧ ls.count c!";" = 4 := by
  refine ⟨_, [c!"interface", c!"A", c!"{", c!"void", c!"f", c!"(", c!"optional", c!"DOMString", c!"a", c!"=", c!"\";\"", c!")", c!";",
    c!"const", c!"long", c!"b", c!"=", c!"1", c!";", c!"}", c!";", c!"A", c!"includes", c!"B", c!";"], rfl, ?_, ?_, ?_⟩
  · exact lexes_sound (by decide +kernel)
  · rfl
  · decide +kernel

end Verif.Properties
