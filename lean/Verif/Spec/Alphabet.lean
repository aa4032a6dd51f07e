import Verif.Spec.Nesting

/-!
# The characters of documents
-/

namespace Verif.Spec
open Nom

/-- The characters of a text that are not in comments and not in strings. -/
def outside : Inside → Str → Str
  | .code, '"' :: s => outside .string s
  | .code, '/' :: '/' :: s => outside .lineComment s
  | .code, '/' :: '*' :: s => outside .blockComment s
  | .code, c :: s => c :: outside .code s
  | .string, '"' :: s => outside .code s
  | .string, _ :: s => outside .string s
  | .lineComment, '\n' :: s => outside .code s
  | .lineComment, _ :: s => outside .lineComment s
  | .blockComment, '*' :: '/' :: s => outside .code s
  | .blockComment, _ :: s => outside .blockComment s
  | _, [] => []

/-- What the end of a text is inside of. -/
def ending : Inside → Str → Inside
  | .code, '"' :: s => ending .string s
  | .code, '/' :: '/' :: s => ending .lineComment s
  | .code, '/' :: '*' :: s => ending .blockComment s
  | .code, _ :: s => ending .code s
  | .string, '"' :: s => ending .code s
  | .string, _ :: s => ending .string s
  | .lineComment, '\n' :: s => ending .code s
  | .lineComment, _ :: s => ending .lineComment s
  | .blockComment, '*' :: '/' :: s => ending .code s
  | .blockComment, _ :: s => ending .blockComment s
  | m, [] => m

/-- White space, letters, digits and punctuation. -/
def alphabet : Str :=
  c!"\t\n\r abcdefghijklmnopqrstuvwxyzABCDEFGHIJKLMNOPQRSTUVWXYZ0123456789_-+.*()[]{}<>,:;=?"

example : outside .code c!"enum A { \"ü\" /* ß */ }; // é" = c!"enum A {   }; " := by rfl
example : ending .code c!"enum A { \"ü\" /* ß */ }; // é" = .lineComment := by rfl

end Verif.Spec
