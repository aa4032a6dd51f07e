import Verif.Source.Tree

/-!
# Rust after the expansion of macros

The items and expressions that the macros of the crate produce, and a reader for them, which expands the macros
on the way. nom's own macros (`do_parse!`, `alt!`, `opt!`, ...) are not in the crate; they stay.

The readers without a line of `/repo` take the place of rustc's parser; they read what is written in `/repo/src/*.rs` or
produced by its macros.
-/

namespace Verif.Source

/-- nom's functions, and Rust's conditions on bytes. `/repo/src/macros.rs:1-41`, `/repo/src/term.rs:26-27`. -/
inductive Prim where
  | tag (t : Str)
  | takeUntil (t : Str)
  | takeWhile (c : Cond)
  | takeWhile1 (c : Cond)
  | char (c : Char)
  | oneOf (cs : Str)
  deriving DecidableEq

/-- Conditions on the byte `c`. `/repo/src/term.rs:27`. -/
inductive ByteCond where
  /-- `is_alphanumeric(c)` -/
  | alphanumeric
  /-- `c == b'x'` -/
  | eq (x : Char)
  | or (a b : ByteCond)
  deriving DecidableEq

/-- The values in `Ok((i, v))`. `/repo/src/macros.rs:200,268-274`, `/repo/src/term.rs:8-13`. -/
inductive Out where
  | expr (e : Expr)
  /-- `Self { x, y, }` -/
  | self (fields : List Str)
  /-- `Name(x)` -/
  | newtype (n : Str) (x : Str)
  deriving DecidableEq

/-- Expressions of type `IResult`. The input of nom's macros is the variable `$i`, which is not an identifier of Rust.
What `/repo/src/macros.rs:1-552` and `/repo/src/term.rs:18-36` expand to. -/
inductive Code where
  /-- `<T as Parse<'a>>::parse(i)` -/
  | call (t : RTy) (i : Str)
  /-- `f(i)` -/
  | fn (f : Str) (i : Str)
  /-- `nom::bytes::complete::f(..)(i)` -/
  | prim (p : Prim) (i : Str)
  /-- `Ok((i, v))` -/
  | ok (i : Str) (v : Out)
  /-- `match c { Err(e) => Err(e), Ok((i, x)) => k }` -/
  | bind (c : Code) (i x : Str) (k : Code)
  /-- `let x = ::std::default::Default::default(); k` -/
  | letDefault (x : Str) (k : Code)
  /-- `let mut res = Ok((i, o)); if let Some(&c) = j.as_bytes().first() { if b {
  res = Err(NomErr::Error((k, ErrorKind::Tag))); } } res` -/
  | unless (i o j : Str) (b : ByteCond) (k : Str)
  /-- `c` with the value of `i` for `$i` -/
  | at (i : Str) (c : Code)
  | alt (m k : Code)
  | altEnd
  /-- `m => {From::from}` for a parser of type `t` -/
  | into (t : RTy) (m : Code)
  | map (m : Code) (x : Str) (e : Expr)
  | opt (m : Code)
  | many0 (m : Code)
  | separatedList (sep m : Code)
  | separatedNonemptyList (sep m : Code)
  | terminated (m k : Code)
  /-- `cond!(x.is_some(), m)` -/
  | condSome (x : Str) (m : Code)
  | recognize (m : Code)
  deriving DecidableEq

/-- `pub fn parse(param: ..) -> .. { let (rest, val) = T::parse(arg)?; assert!(empty.is_empty(), ".."); Ok(ret) }`.
`/repo/src/lib.rs:83-90`. -/
structure Entry where
  param : Str
  rest : Str
  val : Str
  type : RTy
  arg : Str
  empty : Str
  ret : Str
  deriving DecidableEq

/-- Items. What `/repo/src/macros.rs:57-552`, `/repo/src/term.rs:1-53` and `/repo/src/common.rs:5-26` expand to. -/
inductive Item where
  /-- `pub struct name<params> { pub field: type, .. }` -/
  | struct (name : Str) (params : List Str) (fields : List (Str × RTy))
  /-- `pub enum name { Variant(type), .. }` -/
  | enum (name : Str) (variants : List (Str × RTy))
  /-- `impl Parse for name<params> { fn parse(i) { c } }` -/
  | parse (name : Str) (params : List Str) (i : Str) (c : Code)
  /-- `impl From<t> for name { fn from(x: t) -> Self { name::variant(x) } }` -/
  | from (t : RTy) (name : Str) (variant : Str)
  /-- `pub type name = type;` -/
  | alias (name : Str) (type : RTy)
  /-- `fn name(i) { c }` -/
  | fn (name : Str) (i : Str) (c : Code)
  | entry (name : Str) (e : Entry)
  /-- `pub struct name<params>(pub type);` -/
  | tuple (name : Str) (params : List Str) (type : RTy)
  /-- `pub struct name;` -/
  | unit (name : Str)
  /-- `#[derive(..)]` in front of the type `name` -/
  | derive (name : Str) (traits : List Str)
  deriving DecidableEq

/-! ## Reading trees -/

/-- A parser of trees. -/
abbrev Rd (α : Type) := List TT → Option (α × List TT)

instance : Monad Rd where
  pure a := fun ts => some (a, ts)
  bind m f := fun ts => match m ts with
    | some (a, ts) => f a ts
    | none => none

namespace Rd

def fail {α : Type} : Rd α := fun _ => none

def punct (c : Char) : Rd Unit
  | t :: ts => if isP c t then some ((), ts) else none
  | [] => none

def word (s : Str) : Rd Unit
  | t :: ts => if isW s t then some ((), ts) else none
  | [] => none

def ident : Rd Str
  | .tok (.id s) :: ts => some (s, ts)
  | _ => none

/-- The next tree, which stays. -/
def peek : Rd (Option TT)
  | [] => some (none, [])
  | t :: ts => some (some t, t :: ts)

/-- Whether the next tree is the token `c`, which is then taken. -/
def accept (c : Char) : Rd Bool
  | t :: ts => if isP c t then some (true, ts) else some (false, t :: ts)
  | [] => some (false, [])

def acceptWord (s : Str) : Rd Bool
  | t :: ts => if isW s t then some (true, ts) else some (false, t :: ts)
  | [] => some (false, [])

/-- A group with the bracket `c`; all of its contents are read. -/
def inside {α : Type} (c : Char) (r : Rd α) : Rd α
  | .grp d a :: ts =>
    if sameChar c d then
      match r a with
      | some (x, []) => some (x, ts)
      | _ => none
    else none
  | _ => none

/-- A group. -/
def group : Rd (List TT)
  | .grp _ a :: ts => some (a, ts)
  | _ => none

/-- All trees that are left. -/
def rest : Rd (List TT) := fun ts => some (ts, [])

/-- Read all of the trees. -/
def whole {α : Type} (r : Rd α) (ts : List TT) : Rd α := fun ts' =>
  match r ts with
  | some (a, []) => some (a, ts')
  | _ => none

/-- Read all of the trees as tokens. -/
def tokens {α : Type} (r : R α) (ts : List TT) : Rd α := fun ts' =>
  match r (flats ts) with
  | some (a, []) => some (a, ts')
  | _ => none

def path : List Str → Rd Unit
  | [] => pure ()
  | s :: ss => do
    punct ':'
    punct ':'
    word s
    path ss

/-- Elements separated by commas, to the end. `elem` may yield nothing. -/
def commas {α : Type} (elem : Rd (Option α)) : Nat → Rd (List α)
  | 0 => fail
  | n + 1 => do
    match ← peek with
    | none => pure []
    | some _ =>
      let a ← elem
      if ← accept ',' then
        let l ← commas elem n
        pure (a.toList ++ l)
      else pure a.toList

/-- `::` and a further segment of a path. -/
def segments : Nat → Str → Rd Str
  | 0, _ => fail
  | n + 1, s => do
    if ← accept ':' then
      punct ':'
      segments n (← ident)
    else pure s

end Rd
open Rd (inside group whole tokens rest acceptWord)

/-! ## Types -/

def app' (n : Str) : List RTy → Option RTy
  | [] => some (.path0 n)
  | [t] => some (.path1 n t)
  | [t, u] => some (.path2 n t u)
  | [t, u, v] => some (.path3 n t u v)
  | _ => none

mutual

/-- A type. For instance `/repo/src/interface.rs:74`. -/
def rtype (ms : Macros) : Nat → List TT → Option (RTy × List TT)
  | 0, _ => none
  | n + 1, t :: ts =>
    match t with
    | .tok (.id s) =>
      match ts with
      | .tok (.p c) :: ts' =>
        if sameChar c '!' then
          match ts' with
          | .grp _ a :: ts =>
            match expand ms n s a with
            | some b =>
              match rtype ms n b with
              | some (t, []) => some (t, ts)
              | _ => none
            | none => none
          | _ => none
        else if sameChar c '<' then
          match rargs ms n ts' with
          | some (as, ts) =>
            match app' s as with
            | some t => some (t, ts)
            | none => none
          | none => none
        else if sameChar c ':' then
          match ts' with
          | t :: ts'' => if isP ':' t then rtype ms n ts'' else some (.path0 s, ts)
          | [] => some (.path0 s, ts)
        else some (.path0 s, ts)
      | _ => some (.path0 s, ts)
    | .tok (.p c) =>
      if sameChar c '&' then
        match ts with
        | .tok (.life _) :: t :: ts => if isW c!"str" t then some (.path0 c!"&str", ts) else none
        | _ => none
      else none
    | .grp c a =>
      if sameChar c '(' then
        match rargs ms n (a ++ [.tok (.p '>')]) with
        | some ([t, u], []) => some (.path2 c!"(,)" t u, ts)
        | some ([t, u, v], []) => some (.path3 c!"(,,)" t u v, ts)
        | _ => none
      else none
    | _ => none
  | _ + 1, [] => none

/-- The arguments of a type, up to `>`, which is taken. Lifetimes are left out. -/
def rargs (ms : Macros) : Nat → List TT → Option (List RTy × List TT)
  | 0, _ => none
  | _ + 1, [] => none
  | n + 1, t :: ts =>
    if isP '>' t then some ([], ts)
    else if isP ',' t then rargs ms n ts
    else
      match t with
      | .tok (.life _) => rargs ms n ts
      | _ =>
        match rtype ms n (t :: ts) with
        | some (a, ts) =>
          match rargs ms n ts with
          | some (as, ts) => some (a :: as, ts)
          | none => none
        | none => none

end

/-! ## Expressions -/

/-- An identifier that begins with a capital letter is a unit struct. -/
def constant : Expr → Expr
  | .var (c :: x) => if c.isUpper then .token (c :: x) else .var (c :: x)
  | e => e

/-- `is_alphanumeric(c) || c == b'_' || c == b'-'`. `/repo/src/term.rs:27`. -/
def byteCond : Nat → R ByteCond
  | 0 => fail
  | n + 1 => do
    let a ← (do
      if ← accept (.id c!"is_alphanumeric") then
        punct '('
        word c!"c"
        punct ')'
        pure ByteCond.alphanumeric
      else
        word c!"c"
        punct '='
        punct '='
        word c!"b"
        match ← next with
        | .chr x => pure (.eq x)
        | _ => fail)
    if ← accept (.p '|') then
      punct '|'
      pure (.or a (← byteCond n))
    else pure a

namespace Rd

/-- `Self { x, y, }` or `Name(x)`. `/repo/src/macros.rs:273`. -/
def out (n : Nat) : Rd Out := do
  let s ← ident
  if sameStr s c!"Self" then
    pure (.self (← inside '{' (commas (do pure (some (← ident))) n)))
  else pure (.newtype s (← inside '(' ident))

/-- `(x, y)`, the names. `/repo/src/macros.rs:200,283`, `/repo/src/lib.rs:84`. -/
def pair : Rd (Str × Str) := inside '(' do
  let x ← ident
  punct ','
  pure (x, ← ident)

/-- `nom::bytes::complete::f(..)(i)`, behind `nom`. `/repo/src/macros.rs:1-41`. -/
def primitive (n : Nat) : Rd Code := do
  punct ':'
  punct ':'
  let m ← ident
  path [c!"complete"]
  punct ':'
  punct ':'
  let f ← ident
  let a ← group
  let i ← inside '(' ident
  if sameStr m c!"bytes" then
    match a with
    | [.tok (.str t)] =>
      if sameStr f c!"tag" then pure (.prim (.tag t) i)
      else if sameStr f c!"take_until" then pure (.prim (.takeUntil t) i)
      else fail
    | _ =>
      let c ← tokens (closure n) a
      if sameStr f c!"take_while" then pure (.prim (.takeWhile c) i)
      else if sameStr f c!"take_while1" then pure (.prim (.takeWhile1 c) i)
      else fail
  else if sameStr m c!"character" then
    match a with
    | [.tok (.chr c)] => if sameStr f c!"char" then pure (.prim (.char c) i) else fail
    | [.tok (.str t)] => if sameStr f c!"one_of" then pure (.prim (.oneOf t) i) else fail
    | _ => fail
  else fail

/-- The trees up to a brace. -/
def upToBrace : List TT → List TT × List TT
  | .grp c a :: ts =>
    if sameChar c '{' then ([], .grp c a :: ts)
    else
      match upToBrace ts with
      | (h, r) => (.grp c a :: h, r)
  | t :: ts =>
    match upToBrace ts with
    | (h, r) => (t :: h, r)
  | [] => ([], [])

/-- `let mut res = ..`, behind `let mut`. `/repo/src/term.rs:25-31`. -/
def unlessFirst (n : Nat) : Rd Code := do
  let res ← ident
  punct '='
  word c!"Ok"
  let (i, o) ← inside '(' pair
  punct ';'
  word c!"if"
  word c!"let"
  word c!"Some"
  inside '(' (do
    punct '&'
    word c!"c")
  punct '='
  let j ← ident
  punct '.'
  word c!"as_bytes"
  inside '(' (pure ())
  punct '.'
  word c!"first"
  inside '(' (pure ())
  let (b, k) ← inside '{' (do
    word c!"if"
    let h ← (fun ts => some (upToBrace ts) : Rd (List TT))
    let b ← tokens (byteCond n) h
    let k ← inside '{' (do
      word res
      punct '='
      word c!"Err"
      let k ← inside '(' (do
        word c!"NomErr"
        path [c!"Error"]
        inside '(' (inside '(' (do
          let k ← ident
          punct ','
          word c!"ErrorKind"
          path [c!"Tag"]
          pure k)))
      punct ';'
      pure k)
    pure (b, k))
  word res
  pure (.unless i o j b k)

/-- A parser as the argument of one of nom's macros, applied to `$i`: `f` is `f($i)`, `f!(..)` is `f!($i, ..)`.
nom's `call!`; for instance `sp` in `/repo/src/whitespace.rs:24-28`. -/
def argument (c : Rd Code) : Rd Code := do
  let s ← ident
  if ← accept '!' then
    let a ← group
    whole c [.tok (.id s), .tok (.p '!'), .grp '(' (.tok (.id c!"$i") :: .tok (.p ',') :: a)]
  else pure (.fn s c!"$i")

/-- `x:`. `/repo/src/common.rs:10`. -/
def label : Rd (Option Str)
  | .tok (.id x) :: t :: ts => if isP ':' t then some (some x, ts) else some (none, .tok (.id x) :: t :: ts)
  | ts => some (none, ts)

/-- `do_parse!`: `x: m >> .. >> (e)`. For instance `/repo/src/common.rs:10`. -/
def steps (m : Rd Code) : Nat → Rd Code
  | 0 => fail
  | n + 1 => do
    match ← peek with
    | some (.grp _ a) =>
      let _ ← group
      let e ← tokens (expr n) a
      pure (.ok c!"$i" (.expr (constant e)))
    | _ =>
      let x ← label
      let a ← m
      punct '>'
      punct '>'
      pure (.bind a c!"$i" (x.getD c!"$_") (← steps m n))

/-- `|x| e`. `/repo/src/argument.rs:21`. -/
def lambda (n : Nat) : R (Str × Expr) := do
  let x ← parameter
  pure (x, ← expr n)

/-- `alt!`: `m | m => {f} | ..`. For instance `/repo/src/macros.rs:496-498`. -/
def choices (m : Rd Code) : Nat → Rd Code
  | 0 => fail
  | n + 1 => do
    let a ← m
    let a ← (do
      if ← accept '=' then
        punct '>'
        let f ← group
        match f with
        | t :: ts =>
          if isW c!"From" t then
            whole (path [c!"from"]) ts
            match a with
            | .call t i => pure (.into t (.call t i))
            | _ => fail
          else
            let (x, e) ← tokens (lambda n) f
            pure (.at c!"$i" (.map a x e))
        | [] => fail
      else pure a)
    if ← accept '|' then
      pure (.alt a (← choices m n))
    else pure (.alt a .altEnd)

/-- The arguments of one of nom's macros, behind `i,`. For instance `/repo/src/common.rs:63`. -/
def nomBody (n : Nat) (m : Rd Code) (s : Str) : Rd Code := do
  if sameStr s c!"do_parse" then steps m n
  else if sameStr s c!"alt" then choices m n
  else if sameStr s c!"opt" then pure (.opt (← m))
  else if sameStr s c!"many0" then pure (.many0 (← m))
  else if sameStr s c!"recognize" then pure (.recognize (← m))
  else if sameStr s c!"separated_list" then
    let a ← m
    punct ','
    pure (.separatedList a (← m))
  else if sameStr s c!"separated_nonempty_list" then
    let a ← m
    punct ','
    pure (.separatedNonemptyList a (← m))
  else if sameStr s c!"terminated" then
    let a ← m
    punct ','
    pure (.terminated a (← m))
  else if sameStr s c!"cond" then
    let x ← ident
    punct '.'
    word c!"is_some"
    inside '(' (pure ())
    punct ','
    pure (.condSome x (← m))
  else if sameStr s c!"map" then
    let a ← m
    punct ','
    let f ← rest
    let (x, e) ← tokens (lambda n) f
    pure (.map a x e)
  else fail

/-- The arms `Err(e) => Err(e), Ok((i, x)) => k`. `/repo/src/macros.rs:280-290`. -/
def arms (k : Rd Code) : Rd (Str × Str × Code) := do
  word c!"Err"
  let e ← inside '(' ident
  punct '='
  punct '>'
  word c!"Err"
  inside '(' (word e)
  punct ','
  word c!"Ok"
  let (i, x) ← inside '(' pair
  punct '='
  punct '>'
  let c ← k
  let _ ← accept ','
  pure (i, x, c)

def skipTo (c : Char) : Rd Unit
  | [] => none
  | t :: ts => if isP c t then some ((), ts) else skipTo c ts

/-- An expression of type `IResult`. What `/repo/src/macros.rs:45-47` has in its body. -/
def code (ms : Macros) : Nat → Rd Code
  | 0 => fail
  | n + 1 => do
    match ← peek with
    | some (.grp _ _) => inside '{' (code ms n)
    | some (.tok (.p _)) =>
      punct '<'
      let t ← rtype ms n
      word c!"as"
      word c!"crate"
      path [c!"Parse"]
      punct '<'
      let _ ← (fun ts => match ts with | .tok (.life _) :: ts => some ((), ts) | _ => none : Rd Unit)
      punct '>'
      punct '>'
      path [c!"parse"]
      let i ← inside '(' ident
      pure (.call t i)
    | some (.tok (.id s)) =>
      let _ ← ident
      if ← accept '!' then
        let a ← group
        match get? s ms with
        | some rs =>
          match applyRules n a rs with
          | some ts => whole (code ms n) ts
          | none => fail
        | none => whole (do
            let i ← ident
            punct ','
            pure (.at i (← nomBody n (argument (code ms n)) s))) a
      else if sameStr s c!"use" then
        skipTo ';'
        code ms n
      else if sameStr s c!"match" then
        let c ← code ms n
        let (i, x, k) ← inside '{' (arms (code ms n))
        pure (.bind c i x k)
      else if sameStr s c!"let" then
        if ← acceptWord c!"mut" then unlessFirst n
        else
          let x ← ident
          punct '='
          path [c!"std", c!"default", c!"Default", c!"default"]
          inside '(' (pure ())
          punct ';'
          pure (.letDefault x (← code ms n))
      else if sameStr s c!"Ok" then
        inside '(' (inside '(' (do
          let i ← ident
          punct ','
          pure (.ok i (← out n))))
      else if sameStr s c!"nom" then primitive n
      else fail
    | _ => fail

/-! ## Items -/

/-- `<'a>`, `<T>`, `<'a, T: Parse<'a>>`: the names of the types. `/repo/src/common.rs:31`. -/
def params (ms : Macros) (n : Nat) : Rd (List Str) := do
  if ← accept '<' then go n
  else pure []
where
  go : Nat → Rd (List Str)
    | 0 => fail
    | k + 1 => do
      if ← accept '>' then pure []
      else if ← accept ',' then go k
      else
        match ← peek with
        | some (.tok (.id s)) =>
          let _ ← ident
          if ← accept ':' then
            let _ ← rtype ms n
            pure (s :: (← go k))
          else pure (s :: (← go k))
        | some (.tok (.life _)) =>
          let _ ← (fun ts => some ((), ts.tail) : Rd Unit)
          go k
        | _ => fail

/-- `pub x: type`. `/repo/src/macros.rs:234`. -/
def pubField (ms : Macros) (n : Nat) : Rd (Option (Str × RTy)) := do
  word c!"pub"
  let x ← ident
  punct ':'
  pure (some (x, ← rtype ms n))

/-- `Name(type)`. `/repo/src/macros.rs:413`. -/
def enumVariant (ms : Macros) (n : Nat) : Rd (Option (Str × RTy)) := do
  let x ← ident
  pure (some (x, ← inside '(' (rtype ms n)))

/-- `struct`, behind this word: with fields, with an unnamed field, without fields.
`/repo/src/macros.rs:192,233-235`, `/repo/src/term.rs:6,43`. -/
def structItem (ms : Macros) (n : Nat) : Rd (List Item) := do
  let s ← ident
  let ps ← params ms n
  match ← peek with
  | some (.grp c _) =>
    if sameChar c '{' then pure [.struct s ps (← inside '{' (commas (pubField ms n) n))]
    else
      let t ← inside '(' (do word c!"pub"; rtype ms n)
      punct ';'
      pure [.tuple s ps t]
  | _ =>
    punct ';'
    pure [.unit s]

/-- `fn name(i: ..) -> .. { body }`. `/repo/src/macros.rs:45-47`. -/
def function : Rd (Str × Str × List TT) := do
  word c!"fn"
  let s ← ident
  let a ← group
  let i ← (match a with
    | .tok (.id i) :: _ => pure i
    | _ => fail)
  let _ ← (fun ts => some (upToBrace ts) : Rd (List TT))
  pure (s, i, ← group)

/-- `name::variant(x)`. `/repo/src/macros.rs:468`. -/
def variantOf (name x : Str) : Rd Str := do
  word name
  punct ':'
  punct ':'
  let v ← ident
  inside '(' (word x)
  pure v

/-- The last segment of a path. -/
def last : Nat → Rd Str
  | 0 => fail
  | n + 1 => do
    let s ← ident
    if ← accept ':' then
      punct ':'
      last n
    else pure s

/-- `impl`, behind this word.
`/repo/src/macros.rs:466-470,495-499`, `/repo/src/term.rs:8-13`, `/repo/src/common.rs:5-26`. -/
def implItem (ms : Macros) (n : Nat) : Rd Item := do
  let ps ← params ms n
  let s ← last n
  if sameStr s c!"Parse" then
    let _ ← params ms n
    word c!"for"
    let self ← rtype ms n
    if self.args = ps.map .path0 then
      let _ ← (fun ts => some (upToBrace ts) : Rd (List TT))
      let b ← group
      let b ← (match b with
        | .tok (.id m) :: _ :: .grp _ a :: _ =>
          if sameStr m c!"parser" then
            fun ts => match expand ms n m a with
              | some b => some (b, ts)
              | none => none
          else pure b
        | _ => pure b)
      let (f, i, b) ← whole function b
      if sameStr f c!"parse" then
        pure (.parse self.name ps i (← whole (code ms n) b))
      else fail
    else fail
  else if sameStr s c!"From" then
    punct '<'
    let t ← rtype ms n
    punct '>'
    word c!"for"
    match ← rtype ms n with
    | .path0 s =>
      let (f, x, b) ← inside '{' function
      if sameStr f c!"from" then
        pure (.from t s (← whole (variantOf s x) b))
      else fail
    | _ => fail
  else fail

/-- `let (rest, val) = T::parse(arg)?; assert!(empty.is_empty(), ".."); Ok(ret)`. `/repo/src/lib.rs:84-89`. -/
def entry (param : Str) : Rd Entry := do
  word c!"let"
  let (rest, val) ← pair
  punct '='
  let t ← ident
  path [c!"parse"]
  let arg ← inside '(' ident
  punct '?'
  punct ';'
  word c!"assert"
  punct '!'
  let a ← group
  let empty ← (match a with
    | .tok (.id x) :: ts => do
      let _ ← whole (do
        punct '.'
        word c!"is_empty"
        inside '(' (pure ())
        punct ','
        Rd.rest) ts
      pure x
    | _ => fail)
  punct ';'
  word c!"Ok"
  let ret ← inside '(' ident
  pure ⟨param, rest, val, .path0 t, arg, empty, ret⟩

/-- `fn` with its name, its parameter and its body. `/repo/src/whitespace.rs:3`, `/repo/src/lib.rs:83`. -/
def fnItem (ms : Macros) (n : Nat) (name param : Str) (b : List TT) : Option Item :=
  match code ms n b with
  | some (c, []) => some (.fn name param c)
  | _ =>
    match entry param b with
    | some (e, []) => some (.entry name e)
    | _ => none

/-- One item. The forms that occur in `/repo/src/*.rs` after the expansion of macros. -/
def item (ms : Macros) (n : Nat) (s : Str) : Rd (List Item) := do
  if sameStr s c!"pub" then
    match ← peek with
    | some (.grp _ _) =>
      let _ ← group
      pure []
    | _ => pure []
  else if sameStr s c!"struct" then structItem ms n
  else if sameStr s c!"impl" then pure [← implItem ms n]
  else if sameStr s c!"enum" then
    let s ← ident
    let _ ← params ms n
    pure [.enum s (← inside '{' (commas (enumVariant ms n) n))]
  else if sameStr s c!"type" then
    let s ← ident
    let _ ← params ms n
    punct '='
    let t ← rtype ms n
    punct ';'
    pure [.alias s t]
  else if sameStr s c!"use" || sameStr s c!"mod" || sameStr s c!"extern" then
    skipTo ';'
    pure []
  else if sameStr s c!"trait" then
    let _ ← (fun ts => some (upToBrace ts) : Rd (List TT))
    let _ ← group
    pure []
  else fail

end Rd

/-- The type that an item declares. `/repo/src/macros.rs:192,233,412`, `/repo/src/term.rs:6,43`. -/
def Item.declares : Item → Option Str
  | .struct n _ _ | .enum n _ | .tuple n _ _ | .unit n => some n
  | _ => none

/-- The words between the commas. `/repo/src/macros.rs:232,411`. -/
def traitList : List TT → List Str
  | .tok (.id s) :: ts => s :: traitList ts
  | _ :: ts => traitList ts
  | [] => []

/-- An attribute in front of items: `derive` belongs to the first type among them.
`/repo/src/macros.rs:231-233,410-412`. -/
def withAttr (a : List TT) (is : List Item) : Option (List Item) :=
  match a with
  | .tok (.id s) :: .grp _ ts :: _ =>
    if sameStr s c!"derive" then
      match is.findSome? Item.declares with
      | some n => some (.derive n (traitList ts) :: is)
      | none => none
    else some is
  | _ => some is

/-- The items in trees. For a file of `/repo/src`, and for what a macro expands to. -/
def rustItems (ms : Macros) (n : Nat) : Nat → List TT → Option (List Item)
  | 0, _ => none
  | _ + 1, [] => some []
  | k + 1, .tok (.id s) :: ts =>
    if sameStr s c!"fn" then
      match Rd.function (.tok (.id s) :: ts) with
      | some ((f, i, b), ts) =>
        match Rd.fnItem ms n f i b, rustItems ms n k ts with
        | some x, some y => some (x :: y)
        | _, _ => none
      | none => none
    else if sameStr s c!"macro_rules" then
      match ts with
      | _ :: _ :: .grp _ _ :: ts => rustItems ms n k ts
      | _ => none
    else
      match ts with
      | t :: .grp c a :: ts' =>
        if isP '!' t then
          match expand ms n s a with
          | some b =>
            match rustItems ms n k b, rustItems ms n k ts' with
            | some x, some y => some (x ++ y)
            | _, _ => none
          | none => none
        else
          match Rd.item ms n s (t :: .grp c a :: ts') with
          | some (x, ts) =>
            match rustItems ms n k ts with
            | some y => some (x ++ y)
            | none => none
          | none => none
      | ts =>
        match Rd.item ms n s ts with
        | some (x, ts) =>
          match rustItems ms n k ts with
          | some y => some (x ++ y)
          | none => none
        | none => none
  | k + 1, t :: ts =>
    if isP ';' t then rustItems ms n k ts
    else if isP '#' t then
      match ts with
      | .grp _ a :: ts =>
        match rustItems ms n k ts with
        | some is => withAttr a is
        | none => none
      | t :: .grp _ _ :: ts => if isP '!' t then rustItems ms n k ts else none
      | _ => none
    else none

end Verif.Source
