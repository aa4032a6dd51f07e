import Verif.Source.Derive

/-!
# What is printed and what is hashed

What `#[derive(Debug, Hash)]` makes, for the types of the expanded crate.
-/

namespace Verif.Source

/-- A hexadecimal digit, for `char::escape_unicode` of the standard library.
Used by `#[derive(Debug)]` in `/repo/src/macros.rs:191,232,411` and `/repo/src/term.rs:5,42`. -/
def hexDigit (n : Nat) : Char := if n < 10 then Char.ofNat (48 + n) else Char.ofNat (87 + n)

/-- Hexadecimal digits without leading zeros, for `char::escape_unicode` of the standard library.
Used by `#[derive(Debug)]` in `/repo/src/macros.rs:191,232,411` and `/repo/src/term.rs:5,42`. -/
def hex (n : Nat) : Str := if n < 16 then [hexDigit n] else hex (n / 16) ++ [hexDigit (n % 16)]

/-- How a character is printed inside of quotes by `{:?}`. Which characters are printed as they are depends on the tables of
Unicode in the standard library, which are a parameter here.
Used by `#[derive(Debug)]` in `/repo/src/macros.rs:191,232,411` and `/repo/src/term.rs:5,42`. -/
def escapeDebug (printable : Char → Bool) (quote c : Char) : Str :=
  if c = '\x00' then c!"\\0" else
  if c = '\t' then c!"\\t" else
  if c = '\r' then c!"\\r" else
  if c = '\n' then c!"\\n" else
  if c = quote then ['\\', quote] else
  if c = '\\' then c!"\\\\" else
  if printable c then [c] else c!"\\u{" ++ hex c.toNat ++ c!"}"

mutual

/-- `format!("{:?}", v)`.
`#[derive(Debug)]` in `/repo/src/macros.rs:191,232,411` and `/repo/src/term.rs:5,42`, and `Debug` of the types of the
standard library. -/
def Val.debug (p : Char → Bool) : Val → Str
  | .unit => c!"()"
  | .bool a => if a then c!"true" else c!"false"
  | .char a => '\'' :: escapeDebug p '\'' a ++ ['\'']
  | .str a => '"' :: a.flatMap (escapeDebug p '"') ++ ['"']
  | .token n => n
  | .pair a b => '(' :: a.debug p ++ c!", " ++ b.debug p ++ [')']
  | .triple a b c => '(' :: a.debug p ++ c!", " ++ b.debug p ++ c!", " ++ c.debug p ++ [')']
  | .none => c!"None"
  | .some a => c!"Some(" ++ a.debug p ++ [')']
  | .list as => '[' :: debugList p as ++ [']']
  | .box a => a.debug p
  | .struct n as => n ++ debugFields p c!" { " as
  | .newtype n a => n ++ '(' :: a.debug p ++ [')']
  | .variant _ x a => x ++ '(' :: a.debug p ++ [')']

/-- The elements of a `Vec`, with commas between them; `/repo/src/common.rs:63,69`. -/
def debugList (p : Char → Bool) : List Val → Str
  | [] => []
  | a :: as => a.debug p ++ (if as.isEmpty then [] else c!", " ++ debugList p as)

/-- The fields of a struct, `/repo/src/macros.rs:231-235`. -/
def debugFields (p : Char → Bool) (start : Str) : List (Str × Val) → Str
  | [] => if start = c!" { " then [] else c!" }"
  | (x, a) :: as => start ++ x ++ c!": " ++ a.debug p ++ debugFields p c!", " as

end

mutual

/-- What is given to the `Hasher`: a number for each call of `write_u8`, `write_u32`, `write_usize` and `write_isize`, and one
for each byte that is given to `write`.
`#[derive(Hash)]` in `/repo/src/macros.rs:191,232,411` and `/repo/src/term.rs:5,42`, and `Hash` of the types of the standard
library. -/
def Val.feed (is : List Item) : Val → List Nat
  | .unit => []
  | .bool a => [a.toNat]
  | .char a => [a.toNat]
  | .str a => (Spec.utf8 a).map (·.toNat) ++ [255]
  | .token _ => []
  | .pair a b => a.feed is ++ b.feed is
  | .triple a b c => a.feed is ++ b.feed is ++ c.feed is
  | .none => [0]
  | .some a => 1 :: a.feed is
  | .list as => as.length :: feedList is as
  | .box a => a.feed is
  | .struct _ as => feedFields is as
  | .newtype _ a => a.feed is
  | .variant n x a =>
    match enumOf n is with
    | some vs => (if vs.length = 1 then [] else [(place x vs).getD 0]) ++ a.feed is
    | none => []

/-- The elements of a `Vec`, `/repo/src/common.rs:63,69`. -/
def feedList (is : List Item) : List Val → List Nat
  | [] => []
  | a :: as => a.feed is ++ feedList is as

/-- The fields of a struct, `/repo/src/macros.rs:231-235`. -/
def feedFields (is : List Item) : List (Str × Val) → List Nat
  | [] => []
  | (_, a) :: as => a.feed is ++ feedFields is as

end

end Verif.Source
