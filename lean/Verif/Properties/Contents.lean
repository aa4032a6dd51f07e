import Verif.Proof.Contents
import Verif.Properties.Kinds

/-! # C72: everything that is in the text is in the result -/

namespace Verif.Properties
open Nom Spec

/-- Each item of an accepted text is a keyword, a type or a mark, or its contents come next in the result; and the result contains
nothing else. -/
theorem C72_accounts (s : Str) (ls : List Str) (hl : Lexes s ls) (ds : List Definition) (h : weedleParse s = .ok ds) :
    Accounts (strings ds) ls := ho_definitions ds ls (accepted_lexes h hl)

/-- If no name or string in the result is like a keyword, type or mark, then the names, strings and numbers in the result are exactly
the other items of the text, in order. -/
theorem C72_exactly (s : Str) (ls : List Str) (hl : Lexes s ls) (ds : List Definition) (h : weedleParse s = .ok ds)
    (hv : ∀ v ∈ strings ds, v ∉ vocabulary) : AllWritten (strings ds) (ls.filter (· ∉ vocabulary)) := by
  have key := C72_accounts s ls hl ds h
  generalize strings ds = vs at key hv
  clear hl h
  induction key with
  | nil => exact .nil
  | word hw _ ih =>
    rw [List.filter_cons_of_neg (by simpa using hw)]
    exact ih hv
  | @contents vs ls v w hw _ ih =>
    have : w ∉ vocabulary := by
      have hv' := hv v (by simp)
      cases hw with
      | name _ => exact hv'
      | number _ => exact hv'
      | escaped _ =>
        have : ∀ w ∈ vocabulary, w.head? ≠ some '_' := by decide +kernel
        exact fun hm => this _ hm rfl
      | string _ =>
        have : ∀ w ∈ vocabulary, w.head? ≠ some '"' := by decide +kernel
        exact fun hm => this _ hm rfl
    rw [List.filter_cons_of_pos (by simpa using this)]
    exact .cons hw (ih fun v hv' => hv v (by simp [hv']))

private def text : Str := c!"[A=\"b\"] interface _C : D { const long e = 1; undefined f(optional g h = \"i\"); };"
private def textItems : List Str := [c!"[", c!"A", c!"=", c!"\"b\"", c!"]", c!"interface", c!"_C", c!":", c!"D", c!"{", c!"const", c!"long", c!"e",
  c!"=", c!"1", c!";", c!"undefined", c!"f", c!"(", c!"optional", c!"g", c!"h", c!"=", c!"\"i\"", c!")", c!";", c!"}", c!";"]

/-- A text with names, strings and numbers. -/
example : ∃ ds, weedleParse text = .ok ds ∧ Lexes text textItems ∧ (∀ v ∈ strings ds, v ∉ vocabulary) ∧
    strings ds = [c!"A", c!"b", c!"C", c!"D", c!"e", c!"1", c!"f", c!"g", c!"h", c!"i"] :=
  ⟨_, rfl, lexes_sound (by decide +kernel), by decide +kernel, rfl⟩

/-- A name that is like a keyword: which of the two items is the name is not told by the items alone. -/
example : ∃ ds, weedleParse c!"interface interface {};" = .ok ds ∧ Accounts (strings ds) [c!"interface", c!"interface", c!"{", c!"}", c!";"] ∧
    ¬ AllWritten (strings ds) ([c!"interface", c!"interface", c!"{", c!"}", c!";"].filter (· ∉ vocabulary)) :=
  ⟨_, rfl, C72_accounts c!"interface interface {};" _ (lexes_sound (by decide +kernel)) _ rfl, by
    have : [c!"interface", c!"interface", c!"{", c!"}", c!";"].filter (· ∉ vocabulary) = [] := by decide +kernel
    rw [this]
    nofun⟩

end Verif.Properties
