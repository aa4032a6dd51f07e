import Verif.Spec.Alphabet
import Verif.Spec.Lexing

/-!
# Layout

What a tool does that removes comments, writes white space in another way, or makes a text as short as possible.
-/

namespace Verif.Spec
open Nom

/-- The characters of white space. -/
def blanks : Str := [' ', '\t', '\n', '\r']

/-- Each comment replaced by a space (the line break at the end of a line comment is left), and each character `c` of white
space outside of comments and strings by `f c`. Everything else is left as it is; a comment that does not end is removed. -/
def relayout (f : Char → Str) : Inside → Str → Str
  | .code, '"' :: s => '"' :: relayout f .string s
  | .code, '/' :: '/' :: s => relayout f .lineComment s
  | .code, '/' :: '*' :: s => relayout f .blockComment s
  | .code, c :: s => (if c ∈ blanks then f c else [c]) ++ relayout f .code s
  | .string, '"' :: s => '"' :: relayout f .code s
  | .string, c :: s => c :: relayout f .string s
  | .lineComment, '\n' :: s => ' ' :: f '\n' ++ relayout f .code s
  | .lineComment, _ :: s => relayout f .lineComment s
  | .blockComment, '*' :: '/' :: s => ' ' :: relayout f .code s
  | .blockComment, _ :: s => relayout f .blockComment s
  | _, [] => []

/-- The text does not end inside a comment. -/
def NoOpenComment (s : Str) : Prop := ending .code s ≠ .lineComment ∧ ending .code s ≠ .blockComment

/-- White space is written as white space. -/
def Blank (f : Char → Str) : Prop := ∀ c ∈ blanks, f c ≠ [] ∧ ∀ d ∈ f c, d ∈ blanks

example : relayout (fun c => [c]) .code c!"enum/* a */A {\"/*b*/\"}; // c\n" = c!"enum A {\"/*b*/\"};  \n" := by rfl
example : relayout (fun _ => [' ']) .code c!"enum A\n{\t\"\t\" };" = c!"enum A { \"\t\" };" := by rfl

instance decidableNameChar (c : Char) : Decidable (NameChar c) := inferInstanceAs (Decidable (_ ∨ _))

/-- Whether two lexemes run together when nothing is between them. -/
def touch (v w : Str) : Bool :=
  match v.getLast?, w.head? with
  | some c, some d => decide (NameChar c ∧ NameChar d)
  | _, _ => false

/-- The lexemes with a space between those that would run together, and nothing else. -/
def shortest : List Str → Str
  | [] => []
  | [w] => w
  | v :: w :: ls => v ++ ((if touch v w then [' '] else []) ++ shortest (w :: ls))

example : shortest [c!"typedef", c!"unsigned", c!"long", c!"?", c!"a", c!";"] = c!"typedef unsigned long?a;" := by rfl

end Verif.Spec
