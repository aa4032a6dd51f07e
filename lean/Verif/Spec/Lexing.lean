import Verif.Spec.Grammar

/-!
# Lexical items

A text as a sequence of items, whether or not it is valid WebIDL.
-/

namespace Verif.Spec

def punctuation : List Str :=
  [c!"(", c!")", c!"[", c!"]", c!"{", c!"}", c!",", c!":", c!";", c!"<", c!">", c!"=", c!"?", c!"...",
   c!"*"]

/-- a number -/
def Numeral (w : Str) : Prop :=
  Regex.dec.Matches w ∨ Regex.hex.Matches w ∨ Regex.oct.Matches w ∨ Regex.float.Matches w

/-- Words (also with a leading underscore), strings, numbers, punctuation. -/
inductive Item : Str → Prop where
  | word {w : Str} (h : Regex.identifier.Matches w) : Item w
  | negInfinity : Item c!"-Infinity"
  | string {w : Str} (h : Regex.string.Matches w) : Item w
  | number {w : Str} (h : Numeral w) : Item w
  | punct {w : Str} (h : w ∈ punctuation) : Item w

/-- What follows the item `w` does not extend it. -/
def Separate (w e : Str) : Prop :=
  Apart w e ∧ (Numeral w → ∀ c, e.head? = some c → ¬ NameChar c ∧ c ≠ '.' ∧ c ≠ '+')

/-- The items in order, each followed by trivia. -/
inductive Items : List Str → Str → Prop where
  | nil : Items [] []
  | cons {w : Str} {ws : List Str} {t s : Str} (hw : Item w) (ht : Trivia t) (hs : Items ws s)
      (ha : Separate w (t ++ s)) : Items (w :: ws) (w ++ (t ++ s))

/-- The text `s` consists of the items `ls` and trivia. -/
def Lexes (s : Str) (ls : List Str) : Prop := ∃ t b, s = t ++ b ∧ Trivia t ∧ Items ls b

/-- After trivia, `s` begins with the lexemes `ws`, each followed by trivia, and `r` is the rest. -/
def Begins (ws : List Str) (s r : Str) : Prop := ∃ t b, s = t ++ b ∧ Trivia t ∧ TextThen r ws b

/-- Whether a `?` comes next in `r`, and what follows it (or else `r`). -/
inductive Query (r : Str) : Bool → Str → Prop where
  | yes {e : Str} (h : Begins [c!"?"] r e) (he : NoTrivia e) : Query r true e
  | no (h : ∀ e, ¬ Begins [c!"?"] r e) : Query r false r

end Verif.Spec
