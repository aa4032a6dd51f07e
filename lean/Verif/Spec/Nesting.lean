import Verif.Model.Nom

/-!
# How deeply brackets are nested

`nest s` is the largest number of round and angle brackets that are opened and not yet closed at a point of `s`.
Brackets in string literals and in comments do not count.
-/

namespace Verif.Spec
open Nom

/-- What a position of a text is inside of. -/
inductive Inside where
  | code | string | lineComment | blockComment

/-- The nesting of brackets in a text that begins inside something. -/
def nesting : Inside → Str → Nat
  | .code, '(' :: s => nesting .code s + 1
  | .code, '<' :: s => nesting .code s + 1
  | .code, ')' :: s => nesting .code s - 1
  | .code, '>' :: s => nesting .code s - 1
  | .code, '"' :: s => nesting .string s
  | .code, '/' :: '/' :: s => nesting .lineComment s
  | .code, '/' :: '*' :: s => nesting .blockComment s
  | .code, _ :: s => nesting .code s
  | .string, '"' :: s => nesting .code s
  | .string, _ :: s => nesting .string s
  | .lineComment, '\n' :: s => nesting .code s
  | .lineComment, _ :: s => nesting .lineComment s
  | .blockComment, '*' :: '/' :: s => nesting .code s
  | .blockComment, _ :: s => nesting .blockComment s
  | _, [] => 0

/-- The nesting of brackets in a text. -/
def nest (s : Str) : Nat := nesting .code s

example : nest c!"typedef sequence<record<DOMString, (A or B)>> x; // (((" = 3 := by rfl
example : nest c!"interface A { void f(optional DOMString s = \"((((\"); };" = 1 := by rfl

end Verif.Spec
