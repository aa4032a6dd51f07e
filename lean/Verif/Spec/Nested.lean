import Verif.Model.Nom

/-!
# Nested lists of extended attributes

`nestedDoc n` is one type definition, `[A([A([A(T...x)]T...x)]T...x)]typedef T x;` with `n + 1` lists of attributes.
-/

namespace Verif.Spec
open Nom

/-- An argument with `n` nested lists of attributes. -/
def nestedArg : Nat → Str
  | 0 => c!"T...x"
  | n + 1 => c!"[A(" ++ nestedArg n ++ c!")]T...x"

/-- A type definition with `n + 1` nested lists of attributes. -/
def nestedDoc (n : Nat) : Str := c!"[A(" ++ nestedArg n ++ c!")]typedef T x;"

end Verif.Spec
