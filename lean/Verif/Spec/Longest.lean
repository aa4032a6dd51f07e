import Verif.Spec.Grammar
import Verif.Spec.Lexing

/-!
# Prefixes that are spelled by a language
-/

namespace Verif.Spec

/-- The text `s` begins with the lexemes in order, each followed by trivia, and `r` is the rest. Nothing is asked of what
directly follows a number: `12abc` begins with `12`. -/
inductive OpensWith (r : Str) : List Str → Str → Prop where
  | nil : OpensWith r [] r
  | cons {w : Str} {ws : List Str} {t s : Str} (ht : Trivia t) (hs : OpensWith r ws s)
      (ha : Numeral w ∨ Apart w (t ++ s)) : OpensWith r (w :: ws) (w ++ (t ++ s))

/-- After trivia, `s` begins with a spelling of `a`, and `r` is the rest. -/
def Prefixed {α : Type} (L : α → Lang) (a : α) (s r : Str) : Prop :=
  ∃ t ls b, s = t ++ b ∧ Trivia t ∧ L a ls ∧ OpensWith r ls b

end Verif.Spec
