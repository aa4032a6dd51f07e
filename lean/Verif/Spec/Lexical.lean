import Verif.Model.Nom

/-!
# Lexical specification

Trivia (white space and comments), regular expressions, longest matches. Nothing here
mentions a parser.
-/

namespace Verif.Spec

/-- White space, line comments `//...⏎` and block comments `/*...*/` (whose text does not
contain `*/`), in any order and number. -/
inductive Trivia : Str → Prop where
  | nil : Trivia []
  | white {c : Char} {t : Str} (hc : c ∈ [' ', '\t', '\n', '\r']) (ht : Trivia t) :
      Trivia (c :: t)
  | line {body t : Str} (hb : '\n' ∉ body) (ht : Trivia t) :
      Trivia (c!"//" ++ body ++ c!"\n" ++ t)
  | block {body t : Str} (hb : ¬ c!"*/" <:+: body) (ht : Trivia t) :
      Trivia (c!"/*" ++ body ++ c!"*/" ++ t)

/-- `s` does not begin with white space or a complete comment. -/
def NoTrivia (s : Str) : Prop := ∀ t r, s = t ++ r → Trivia t → t = []

/-- Skipping the trivia at the beginning of `s`, all of it, leaves `r`. -/
def Skips (s r : Str) : Prop := ∃ t, s = t ++ r ∧ Trivia t ∧ NoTrivia r

/-- Regular expressions. -/
inductive Regex where
  /-- one character of a class -/
  | cls (p : Char → Prop)
  | eps
  | seq (a b : Regex)
  | alt (a b : Regex)
  | star (a : Regex)

/-- The strings matched by a regular expression. -/
inductive Regex.Matches : Regex → Str → Prop where
  | cls {p : Char → Prop} {c : Char} (h : p c) : Matches (.cls p) [c]
  | eps : Matches .eps []
  | seq {a b : Regex} {u v : Str} (hu : Matches a u) (hv : Matches b v) :
      Matches (.seq a b) (u ++ v)
  | left {a b : Regex} {u : Str} (hu : Matches a u) : Matches (.alt a b) u
  | right {a b : Regex} {u : Str} (hu : Matches b u) : Matches (.alt a b) u
  | starNil {a : Regex} : Matches (.star a) []
  | starCons {a : Regex} {u v : Str} (hu : Matches a u) (hv : Matches (.star a) v) :
      Matches (.star a) (u ++ v)

namespace Regex

/-- the character `c` -/
def chr (c : Char) : Regex := cls (· = c)
/-- `a?` -/
def opt (a : Regex) : Regex := alt a eps
/-- `a+` -/
def plus (a : Regex) : Regex := seq a (star a)

infixr:65 " ⬝ " => Regex.seq
infixr:60 " ∣ " => Regex.alt

/-- `[0-9]` -/
def digit : Regex := cls fun c => '0' ≤ c ∧ c ≤ '9'
/-- `[1-9]` -/
def digit1 : Regex := cls fun c => '1' ≤ c ∧ c ≤ '9'
/-- `[0-7]` -/
def octDigit : Regex := cls fun c => '0' ≤ c ∧ c ≤ '7'
/-- `[0-9A-Fa-f]` -/
def hexDigit : Regex :=
  cls fun c => ('0' ≤ c ∧ c ≤ '9') ∨ ('A' ≤ c ∧ c ≤ 'F') ∨ ('a' ≤ c ∧ c ≤ 'f')
/-- `[A-Za-z]` -/
def letter : Regex := cls fun c => ('A' ≤ c ∧ c ≤ 'Z') ∨ ('a' ≤ c ∧ c ≤ 'z')
/-- `[0-9A-Z_a-z-]` -/
def nameChar : Regex := cls fun c =>
  ('0' ≤ c ∧ c ≤ '9') ∨ ('A' ≤ c ∧ c ≤ 'Z') ∨ ('a' ≤ c ∧ c ≤ 'z') ∨ c = '_' ∨ c = '-'

/-- `[A-Za-z][0-9A-Z_a-z-]*` -/
def word : Regex := letter ⬝ star nameChar
/-- `_?[A-Za-z][0-9A-Z_a-z-]*` -/
def identifier : Regex := opt (chr '_') ⬝ word
/-- `-?[1-9][0-9]*` -/
def dec : Regex := opt (chr '-') ⬝ digit1 ⬝ star digit
/-- `-?0[Xx][0-9A-Fa-f]*` -/
def hex : Regex := opt (chr '-') ⬝ chr '0' ⬝ (chr 'X' ∣ chr 'x') ⬝ star hexDigit
/-- `-?0[Xx][0-9A-Fa-f]+`, the documented form -/
def hexDoc : Regex := opt (chr '-') ⬝ chr '0' ⬝ (chr 'X' ∣ chr 'x') ⬝ plus hexDigit
/-- `-?0[0-7]*` -/
def oct : Regex := opt (chr '-') ⬝ chr '0' ⬝ star octDigit
/-- `[Ee][+-]?[0-9]+` -/
def exponent : Regex := (chr 'E' ∣ chr 'e') ⬝ opt (chr '+' ∣ chr '-') ⬝ plus digit
/-- `-?(([0-9]+\.[0-9]*|[0-9]*\.[0-9]+)([Ee][+-]?[0-9]+)?|[0-9]+[Ee][+-]?[0-9]+)` -/
def float : Regex :=
  opt (chr '-') ⬝
    ((plus digit ⬝ chr '.' ⬝ star digit ∣ star digit ⬝ chr '.' ⬝ plus digit) ⬝ opt exponent
      ∣ plus digit ⬝ exponent)
/-- `"[^"]*"` -/
def string : Regex := chr '"' ⬝ star (cls (· ≠ '"')) ⬝ chr '"'

end Regex

/-- `w` is the longest prefix of `s` matched by `re`, and `rest` is what follows it. -/
def LongestMatch (re : Regex) (s w rest : Str) : Prop :=
  s = w ++ rest ∧ re.Matches w ∧ ∀ w', w' <+: s → re.Matches w' → w'.length ≤ w.length

end Verif.Spec
