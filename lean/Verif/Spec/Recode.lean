import Verif.Source.Meaning

/-!
# Writing a text in another way

Other line ends, spaces in place of tabs, other characters in place of those outside ASCII.
-/

namespace Verif.Spec
open Nom Source

/-- A way of writing the characters of a text: the ASCII characters that are not white space stay as they are, spaces, tabs
and carriage returns become one or more spaces, tabs and carriage returns, a line feed becomes white space with a line feed
in it, and characters outside ASCII become one or more characters outside ASCII. -/
structure Recoding (f : Char → Str) : Prop where
  ascii : ∀ c, c.toNat < 128 → c ∉ c!" \t\r\n" → f c = [c]
  blank : ∀ c ∈ c!" \t\r", f c ≠ [] ∧ ∀ d ∈ f c, d ∈ c!" \t\r"
  line : '\n' ∈ f '\n' ∧ ∀ d ∈ f '\n', d ∈ c!" \t\r\n"
  other : ∀ c, 128 ≤ c.toNat → f c ≠ [] ∧ ∀ d ∈ f c, 128 ≤ d.toNat

/-- The whole text. -/
def recode (f : Char → Str) (s : Str) : Str := s.flatMap f

mutual

/-- A Rust value with its strings written in that way. -/
def recodeVal (f : Char → Str) : Val → Val
  | .str s => .str (recode f s)
  | .pair a b => .pair (recodeVal f a) (recodeVal f b)
  | .triple a b c => .triple (recodeVal f a) (recodeVal f b) (recodeVal f c)
  | .some v => .some (recodeVal f v)
  | .list vs => .list (recodeVals f vs)
  | .box v => .box (recodeVal f v)
  | .struct n fs => .struct n (recodeFields f fs)
  | .newtype n v => .newtype n (recodeVal f v)
  | .variant n x v => .variant n x (recodeVal f v)
  | .unit => .unit
  | .bool b => .bool b
  | .char c => .char c
  | .token n => .token n
  | .none => .none

def recodeVals (f : Char → Str) : List Val → List Val
  | [] => []
  | v :: vs => recodeVal f v :: recodeVals f vs

def recodeFields (f : Char → Str) : List (Str × Val) → List (Str × Val)
  | [] => []
  | (x, v) :: fs => (x, recodeVal f v) :: recodeFields f fs

end

/-- An error at the same place. -/
def recodeErr (f : Char → Str) : Err Char → Err Char
  | .incomplete => .incomplete
  | .error s k => .error (recode f s) k
  | .failure s k => .failure (recode f s) k

/-- A result with the remainder, or the place of the error, and the value written in that way. -/
def recodeRes (f : Char → Str) : Res Char Val → Res Char Val
  | .ok r v => .ok (recode f r) (recodeVal f v)
  | .err e => .err (recodeErr f e)
  | .diverge => .diverge

/-- Line feeds become carriage returns and line feeds. -/
def crlf (c : Char) : Str := if c = '\n' then c!"\r\n" else [c]

/-- Tabs become spaces. -/
def expandTabs (n : Nat) (c : Char) : Str := if c = '\t' then List.replicate (n + 1) ' ' else [c]

/-- UTF-8 read as Latin-1: each byte becomes the character of that number. -/
def mojibake (c : Char) : Str := (String.utf8EncodeChar c).map fun b => Char.ofNat b.toNat

mutual

/-- The strings in a Rust value. -/
def texts : Val → List Str
  | .str s => [s]
  | .pair a b => texts a ++ texts b
  | .triple a b c => texts a ++ texts b ++ texts c
  | .some v | .box v | .newtype _ v | .variant _ _ v => texts v
  | .list vs => textsOf vs
  | .struct _ fs => textsIn fs
  | .unit | .bool _ | .char _ | .token _ | .none => []

def textsOf : List Val → List Str
  | [] => []
  | v :: vs => texts v ++ textsOf vs

def textsIn : List (Str × Val) → List Str
  | [] => []
  | (_, v) :: fs => texts v ++ textsIn fs

end

end Verif.Spec
