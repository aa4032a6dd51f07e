import Verif.Spec.Lexical

/-!
# Beginnings of texts, for the errors of terminals (C54)
-/

namespace Verif.Spec

/-- `u` is `r` without the character `c`, if that is the first. -/
def Without (c : Char) (r u : Str) : Prop := r = c :: u ∨ (u = r ∧ ¬ [c] <+: r)

/-- `u` begins with a character of the kind. -/
def BeginsWith (p : Char → Bool) (u : Str) : Prop := ∃ c v, u = c :: v ∧ p c = true

end Verif.Spec
