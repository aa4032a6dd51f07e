import Verif.Source.Debug

/-!
# What is printed on many lines

What `{:#?}` prints, for the types of the expanded crate.
-/

namespace Verif.Source

/-- `PadAdapter` of the standard library: four spaces before each line. `start` holds at the beginning of a line.
Used by `#[derive(Debug)]` in `/repo/src/macros.rs:191,232,411` and `/repo/src/term.rs:5,42`. -/
def indent : (start : Bool) → Str → Str
  | _, [] => []
  | true, c :: s => c!"    " ++ c :: indent (c == '\n') s
  | false, c :: s => c :: indent (c == '\n') s

/-- An entry of a struct, tuple or list: on its own lines, followed by a comma.
`DebugStruct`, `DebugTuple` and `DebugList` of the standard library, for `#[derive(Debug)]` in `/repo/src/macros.rs:191,232,411`. -/
def entry (s : Str) : Str := indent true (s ++ c!",\n")

mutual

/-- `format!("{:#?}", v)`.
`#[derive(Debug)]` in `/repo/src/macros.rs:191,232,411` and `/repo/src/term.rs:5,42`, and `Debug` of the types of the
standard library. -/
def Val.pretty (p : Char → Bool) : Val → Str
  | .unit => c!"()"
  | .bool a => if a then c!"true" else c!"false"
  | .char a => '\'' :: escapeDebug p '\'' a ++ ['\'']
  | .str a => '"' :: a.flatMap (escapeDebug p '"') ++ ['"']
  | .token n => n
  | .pair a b => c!"(\n" ++ entry (a.pretty p) ++ entry (b.pretty p) ++ [')']
  | .triple a b c => c!"(\n" ++ entry (a.pretty p) ++ entry (b.pretty p) ++ entry (c.pretty p) ++ [')']
  | .none => c!"None"
  | .some a => c!"Some(\n" ++ entry (a.pretty p) ++ [')']
  | .list as => '[' :: (if as.isEmpty then [] else ['\n']) ++ prettyList p as ++ [']']
  | .box a => a.pretty p
  | .struct n as => n ++ (if as.isEmpty then [] else c!" {\n" ++ prettyFields p as ++ ['}'])
  | .newtype n a => n ++ c!"(\n" ++ entry (a.pretty p) ++ [')']
  | .variant _ x a => x ++ c!"(\n" ++ entry (a.pretty p) ++ [')']

/-- The elements of a `Vec`; `/repo/src/common.rs:63,69`. -/
def prettyList (p : Char → Bool) : List Val → Str
  | [] => []
  | a :: as => entry (a.pretty p) ++ prettyList p as

/-- The fields of a struct, `/repo/src/macros.rs:231-235`. -/
def prettyFields (p : Char → Bool) : List (Str × Val) → Str
  | [] => []
  | (x, a) :: as => entry (x ++ c!": " ++ a.pretty p) ++ prettyFields p as

end

end Verif.Source
