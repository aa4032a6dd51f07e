import Verif.Model.Nom

/-!
# The language in which the parsers of weedle are written

`/repo/src/*.rs` describes its parsers by declarations inside `ast_types!`, `generate_terms!` and
`impl Parse for`, with nom's macros for the fields that are not parsed by the parser of their type.
These are the abstract syntax trees of that language. `Verif/Source/Read.lean` reads them off the text of
the files, `Verif/Source/Meaning.lean` says what they mean.
-/

namespace Verif.Source

/-- A Rust type: a path with up to three type arguments. Lifetimes are left out, of a path like
`term::OpenParen` only the last segment is kept, `&'a str` is the path `&str`, a pair is the path `(,)`, a
triple is the path `(,,)`. `term!(x)` is replaced by what the macro `term!` says.
The types in the declarations of `/repo/src/argument.rs`, `/repo/src/attribute.rs`, `/repo/src/common.rs` and so on; `term!` is `/repo/src/term.rs:315-571`. -/
inductive RTy where
  | path0 (n : Str)
  | path1 (n : Str) (t : RTy)
  | path2 (n : Str) (t u : RTy)
  | path3 (n : Str) (t u v : RTy)
  deriving DecidableEq

/-- The path of a type, without its arguments: `Parenthesized` in `/repo/src/interface.rs:46`. -/
def RTy.name : RTy → Str
  | .path0 n | .path1 n _ | .path2 n _ _ | .path3 n _ _ _ => n

/-- The type arguments of a path, for instance in `/repo/src/interface.rs:46`. -/
def RTy.args : RTy → List RTy
  | .path0 _ => []
  | .path1 _ t => [t]
  | .path2 _ t u => [t, u]
  | .path3 _ t u v => [t, u, v]

/-- The conditions on characters in closures `|c| ..`.
`/repo/src/common.rs:86-87`, `/repo/src/literal.rs:11,22,32,45`, `/repo/src/whitespace.rs:11`. -/
inductive Cond where
  | alphabetic
  | alphanumeric
  | digit
  | hexdigit
  /-- `c == 'x'` -/
  | eq (x : Char)
  /-- `c != 'x'` -/
  | ne (x : Char)
  /-- `'x' <= c` -/
  | ge (x : Char)
  /-- `c <= 'x'` -/
  | le (x : Char)
  | and (a b : Cond)
  | or (a b : Cond)
  deriving DecidableEq

/-- The expressions for results.
`/repo/src/common.rs:10-25`, `/repo/src/argument.rs:21`, `/repo/src/literal.rs:85-88`, `/repo/src/term.rs:8-13`. -/
inductive Expr where
  | unit
  | bool (b : Bool)
  | var (x : Str)
  /-- `(x, y)` -/
  | pair (x y : Str)
  /-- `(x, y, z)` -/
  | triple (x y z : Str)
  /-- `Box::new(x)` -/
  | box (x : Str)
  /-- `x.unwrap_or(None)` -/
  | unwrapOrNone (x : Str)
  /-- a unit struct -/
  | token (n : Str)
  deriving DecidableEq

/-- Applications of nom's macros.
`/repo/src/common.rs:5-91`, `/repo/src/literal.rs:7-138`, `/repo/src/argument.rs:19-22`, `/repo/src/term.rs:8-13,45-50`, `/repo/src/whitespace.rs:3-31`. -/
inductive Mac where
  /-- `weedle!(t)` -/
  | weedle (t : RTy)
  /-- the function `sp` -/
  | sp
  /-- `do_parse!(x: m >> k)` -/
  | bind (x : Option Str) (m k : Mac)
  /-- the end `(e)` of `do_parse!` -/
  | ret (e : Expr)
  /-- `alt!(m | k)` -/
  | alt (m k : Mac)
  /-- the end of the alternatives of `alt!` -/
  | altEnd
  /-- `map!(m, |x| e)`, also `m => {|x| e}` in `alt!` -/
  | map (m : Mac) (x : Str) (e : Expr)
  | opt (m : Mac)
  | many0 (m : Mac)
  | separatedList (sep m : Mac)
  | separatedNonemptyList (sep m : Mac)
  | terminated (m k : Mac)
  /-- `cond!(x.is_some(), m)` -/
  | condSome (x : Str) (m : Mac)
  | recognize (m : Mac)
  | tag (t : Str)
  | identTag (t : Str)
  | takeUntil (t : Str)
  | takeWhile (c : Cond)
  | takeWhile1 (c : Cond)
  | char (c : Char)
  | oneOf (cs : Str)
  deriving DecidableEq

/-- `ws!(m)`, `/repo/src/whitespace.rs:20-31`: `do_parse!(sp >> s: m >> sp >> (s))` -/
def Mac.ws (m : Mac) : Mac := .bind none .sp (.bind (some c!"s") m (.bind none .sp (.ret (.var c!"s"))))

/-- What is written behind the type of a field. The three forms of a field in `/repo/src/macros.rs:221-398`. -/
inductive Init where
  /-- nothing -/
  | weedle
  /-- `= m` -/
  | mac (m : Mac)
  /-- `= marker` -/
  | marker
  deriving DecidableEq

/-- `name: type`, `name: type = m`, `name: type = marker`. The three forms in `/repo/src/macros.rs:221-398`. -/
structure Field where
  name : Str
  type : RTy
  init : Init
  deriving DecidableEq

/-- Declarations.
`/repo/src/macros.rs:57-552` (`ast_types!`), `/repo/src/term.rs:1-53` (terminals), `/repo/src/common.rs:5-26` (`impl Parse`), `/repo/src/whitespace.rs:3-17` (`sp`). -/
inductive Decl where
  /-- `struct name<params> { fields }` -/
  | struct (name : Str) (params : List Str) (fields : List Field)
  /-- `struct name(type = m,)` or `struct name(type,)` -/
  | newtype (name : Str) (m : Mac)
  /-- `enum name { variants }` -/
  | enum (name : Str) (variants : List (Str × RTy))
  /-- `pub type name = type;` -/
  | alias (name : Str) (type : RTy)
  /-- `impl Parse for name<params> { parser!(m); }`, the types made by `generate_terms!` and
  `generate_terms_for_names!`, and the function `sp` -/
  | fn (name : Str) (params : List Str) (m : Mac)
  deriving DecidableEq

/-- The name that is declared: `$name` in `/repo/src/macros.rs:183-552`, `$typ` in `/repo/src/term.rs:1-53`. -/
def Decl.name : Decl → Str
  | .struct n _ _ | .newtype n _ | .enum n _ | .alias n _ | .fn n _ _ => n

/-- The type parameters, `/repo/src/common.rs:62,68` and `/repo/src/common.rs:5-26`. -/
def Decl.params : Decl → List Str
  | .struct _ ps _ | .fn _ ps _ => ps
  | _ => []

end Verif.Source
