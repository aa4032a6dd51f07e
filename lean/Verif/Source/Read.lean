import Verif.Source.Syntax

/-!
# Reading the source

A lexer and a recursive descent parser for the part of Rust that is used in the declarations of parsers.
Bounds on the recursion are given by a number of steps; when they are exceeded, reading fails.

The definitions of this file model no code of the crate: they take the place of rustc's lexer and parser for
`/repo/src/*.rs`, for the declarations alone. `Verif/Source/Tree.lean` and `Verif/Source/Rust.lean` do so for everything.
-/

namespace Verif.Source

/-! ## Tokens -/

inductive Tok where
  | id (s : Str)
  | p (c : Char)
  | str (s : Str)
  | chr (c : Char)
  | life (s : Str)
  deriving DecidableEq

def isWord (c : Char) : Bool := c.isAlphanum || c == '_'

def escape (c : Char) : Char :=
  if c == 'n' then '\n' else if c == 't' then '\t' else if c == 'r' then '\r' else c

/-- The rest of a string literal. -/
def lexStr : Str → Option (Str × Str)
  | [] => none
  | '"' :: cs => some ([], cs)
  | '\\' :: c :: cs => do
    let (a, b) ← lexStr cs
    some (escape c :: a, b)
  | c :: cs => do
    let (a, b) ← lexStr cs
    some (c :: a, b)

/-- The tokens of a line. Comments are left out. -/
def lex : Nat → Str → Option (List Tok)
  | 0, _ => none
  | _ + 1, [] => some []
  | n + 1, c :: cs =>
    if c == ' ' then lex n cs
    else if c == '/' && cs.head? == some '/' then some []
    else if isWord c then do
      let l ← lex n (cs.dropWhile isWord)
      some (.id (c :: cs.takeWhile isWord) :: l)
    else if c == '"' then do
      let (a, b) ← lexStr cs
      let l ← lex n b
      some (.str a :: l)
    else if c == '\'' then
      match cs with
      | '\\' :: d :: '\'' :: cs => do
        let l ← lex n cs
        some (.chr (escape d) :: l)
      | d :: '\'' :: cs => do
        let l ← lex n cs
        some (.chr d :: l)
      | _ => do
        let l ← lex n (cs.dropWhile isWord)
        some (.life (cs.takeWhile isWord) :: l)
    else do
      let l ← lex n cs
      some (.p c :: l)

def lexLines : List Str → Option (List Tok)
  | [] => some []
  | l :: ls => do
    let a ← lex (l.length + 1) l
    let b ← lexLines ls
    some (a ++ b)

/-! ## Parsing -/

/-- A parser of tokens. -/
abbrev R (α : Type) := List Tok → Option (α × List Tok)

instance : Monad R where
  pure a := fun ts => some (a, ts)
  bind m f := fun ts => match m ts with
    | some (a, ts) => f a ts
    | none => none

def fail {α : Type} : R α := fun _ => none

/-- The next token, which stays. -/
def peek : R (Option Tok) := fun ts => some (ts.head?, ts)

def next : R Tok
  | [] => none
  | t :: ts => some (t, ts)

def expect (t : Tok) : R Unit := do
  let t' ← next
  if t' = t then pure () else fail

def punct (c : Char) : R Unit := expect (.p c)

def word (s : Str) : R Unit := expect (.id s)

def ident : R Str := do
  match ← next with
  | .id s => pure s
  | _ => fail

/-- Whether the next token is `t`, which is then taken. -/
def accept (t : Tok) : R Bool := do
  if (← peek) = some t then
    let _ ← next
    pure true
  else pure false

def isOpen (c : Char) : Bool := c == '(' || c == '[' || c == '{'
def isClose (c : Char) : Bool := c == ')' || c == ']' || c == '}'

/-- The tokens up to the bracket that closes the current group; the bracket is taken. -/
def group : Nat → List Tok → Option (List Tok × List Tok)
  | _, [] => none
  | d, .p c :: ts =>
    if isClose c then
      match d with
      | 0 => some ([], ts)
      | d + 1 => do
        let (a, b) ← group d ts
        some (.p c :: a, b)
    else do
      let (a, b) ← group (if isOpen c then d + 1 else d) ts
      some (.p c :: a, b)
  | d, t :: ts => do
    let (a, b) ← group d ts
    some (t :: a, b)

/-- The tokens of a bracketed group. -/
def bracketed : R (List Tok) := do
  match ← next with
  | .p c => if isOpen c then group 0 else fail
  | _ => fail

/-- Attributes `#[..]`. -/
def attributes : Nat → R Unit
  | 0 => fail
  | n + 1 => do
    if ← accept (.p '#') then
      let _ ← bracketed
      attributes n
    else pure ()

/-- Tokens up to `c`, which is taken. -/
def skipTo (c : Char) : R Unit := fun ts =>
  match ts.dropWhile (· ≠ .p c) with
  | [] => none
  | _ :: ts => some ((), ts)

/-! ## Types -/

/-- The macro `term!`: its rules. -/
abbrev Terms := List (List Tok × Str)

def lookup {α β : Type} [DecidableEq α] (a : α) : List (α × β) → Option β
  | [] => none
  | (a', b) :: l => if a' = a then some b else lookup a l

/-- `::` and a further segment of a path. -/
def segments : Nat → Str → R Str
  | 0, _ => fail
  | n + 1, s => do
    if ← accept (.p ':') then
      punct ':'
      segments n (← ident)
    else pure s

def app (n : Str) : List RTy → R RTy
  | [] => pure (.path0 n)
  | [t] => pure (.path1 n t)
  | [t, u] => pure (.path2 n t u)
  | [t, u, v] => pure (.path3 n t u v)
  | _ => fail

/-- Elements separated by commas, up to the token `c`, which is taken. `elem` may yield nothing. -/
def commas {α : Type} (elem : R (Option α)) (c : Char) : Nat → R (List α)
  | 0 => fail
  | n + 1 => do
    if ← accept (.p c) then pure []
    else
      let a ← elem
      if ← accept (.p ',') then
        let l ← commas elem c n
        pure (a.toList ++ l)
      else
        punct c
        pure a.toList

def type (terms : Terms) : Nat → R RTy
  | 0 => fail
  | n + 1 => do
    let argument : R (Option RTy) := do
      match ← peek with
      | some (.life _) =>
        let _ ← next
        pure none
      | _ => pure (some (← type terms n))
    match ← next with
    | .p '&' =>
      expect (.life c!"a")
      word c!"str"
      pure (.path0 c!"&str")
    | .p '(' =>
      match ← commas argument ')' n with
      | [t, u] => pure (.path2 c!"(,)" t u)
      | [t, u, v] => pure (.path3 c!"(,,)" t u v)
      | _ => fail
    | .id s =>
      if s = c!"term" ∧ (← peek) = some (.p '!') then
        let _ ← next
        match lookup (← bracketed) terms with
        | some n => pure (.path0 n)
        | none => fail
      else
        let s ← segments n s
        if ← accept (.p '<') then app s (← commas argument '>' n)
        else pure (.path0 s)
    | _ => fail

/-! ## Macros -/

/-- The conditions in closures with the parameter `c`. -/
def atom : R Cond := do
  match ← next with
  | .id _ =>
    match ← next with
    | .p '.' =>
      let s ← ident
      punct '('
      punct ')'
      if s = c!"is_ascii_alphabetic" then pure .alphabetic
      else if s = c!"is_ascii_alphanumeric" then pure .alphanumeric
      else if s = c!"is_ascii_digit" then pure .digit
      else if s = c!"is_ascii_hexdigit" then pure .hexdigit
      else fail
    | .p o =>
      punct '='
      match ← next with
      | .chr x =>
        if o == '=' then pure (.eq x)
        else if o == '!' then pure (.ne x)
        else if o == '<' then pure (.le x)
        else fail
      | _ => fail
    | _ => fail
  | .chr x =>
    punct '<'
    punct '='
    let _ ← ident
    pure (.ge x)
  | _ => fail

/-- One operator, `&&` or `||`, throughout, to the end. -/
def conds : Nat → R Cond
  | 0 => fail
  | n + 1 => do
    let a ← atom
    match ← peek with
    | none => pure a
    | _ =>
      if ← accept (.p '&') then
        punct '&'
        pure (.and a (← conds n))
      else
        punct '|'
        punct '|'
        pure (.or a (← conds n))

/-- `|c: char|` or `|c|` -/
def parameter : R Str := do
  punct '|'
  let x ← ident
  if ← accept (.p ':') then
    let _ ← ident
    punct '|'
    pure x
  else
    punct '|'
    pure x

def closure (n : Nat) : R Cond := do
  let _ ← parameter
  conds n

def variables : Nat → R (List Str)
  | 0 => fail
  | n + 1 => do
    let x ← ident
    if ← accept (.p ',') then
      pure (x :: (← variables n))
    else pure [x]

def expr (n : Nat) : R Expr := do
  match ← next with
  | .p '(' =>
    if ← accept (.p ')') then pure .unit
    else
      let xs ← variables n
      punct ')'
      match xs with
      | [x, y] => pure (.pair x y)
      | [x, y, z] => pure (.triple x y z)
      | _ => fail
  | .id x =>
    if x = c!"true" then pure (.bool true)
    else if x = c!"false" then pure (.bool false)
    else if x = c!"Box" then
      punct ':'
      punct ':'
      word c!"new"
      punct '('
      let x ← ident
      punct ')'
      pure (.box x)
    else if ← accept (.p '.') then
      word c!"unwrap_or"
      punct '('
      word c!"None"
      punct ')'
      pure (.unwrapOrNone x)
    else pure (.var x)
  | _ => fail

/-- `name!(..)`, or the function `sp`. -/
def mac (terms : Terms) : Nat → R Mac
  | 0 => fail
  | n + 1 => do
    let m := mac terms n
    let s ← ident
    if s = c!"sp" then pure .sp
    else
      punct '!'
      punct '('
      let r ← body terms n m s
      punct ')'
      pure r
where
  body (terms : Terms) (n : Nat) (m : R Mac) (s : Str) : R Mac := do
    if s = c!"weedle" then pure (.weedle (← type terms n))
    else if s = c!"opt" then pure (.opt (← m))
    else if s = c!"many0" then pure (.many0 (← m))
    else if s = c!"recognize" then pure (.recognize (← m))
    else if s = c!"ws" then pure (.ws (← m))
    else if s = c!"separated_list" then
      let a ← m
      punct ','
      pure (.separatedList a (← m))
    else if s = c!"separated_nonempty_list" then
      let a ← m
      punct ','
      pure (.separatedNonemptyList a (← m))
    else if s = c!"terminated" then
      let a ← m
      punct ','
      pure (.terminated a (← m))
    else if s = c!"cond" then
      let x ← ident
      punct '.'
      word c!"is_some"
      punct '('
      punct ')'
      punct ','
      pure (.condSome x (← m))
    else if s = c!"map" then
      let a ← m
      punct ','
      let x ← parameter
      pure (.map a x (← expr n))
    else if s = c!"do_parse" then doParse m n
    else if s = c!"alt" then alternatives m n
    else if s = c!"take_while" then
      let ts ← inner
      match closure n ts with
      | some (c, []) => pure (.takeWhile c)
      | _ => fail
    else if s = c!"take_while1" then
      let ts ← inner
      match closure n ts with
      | some (c, []) => pure (.takeWhile1 c)
      | _ => fail
    else
      match ← next with
      | .chr x => if s = c!"char" then pure (.char x) else fail
      | .str x =>
        if s = c!"tag" then pure (.tag x)
        else if s = c!"take_until" then pure (.takeUntil x)
        else if s = c!"one_of" then pure (.oneOf x)
        else fail
      | _ => fail
  /-- The tokens up to the closing bracket, which stays. -/
  inner : R (List Tok) := fun ts =>
    match group 0 ts with
    | some (a, b) => some (a, .p ')' :: b)
    | none => none
  doParse (m : R Mac) : Nat → R Mac
    | 0 => fail
    | n + 1 => do
      if ← accept (.p '(') then
        let e ← expr n
        punct ')'
        pure (.ret e)
      else
        let x ← label
        let a ← m
        punct '>'
        punct '>'
        pure (.bind x a (← doParse m n))
  label : R (Option Str) := fun ts =>
    match ts with
    | .id x :: .p ':' :: ts => some (some x, ts)
    | _ => some (none, ts)
  alternatives (m : R Mac) : Nat → R Mac
    | 0 => fail
    | n + 1 => do
      let a ← m
      let a ← (do
        if ← accept (.p '=') then
          punct '>'
          punct '{'
          let x ← parameter
          let e ← expr n
          punct '}'
          pure (.map a x e)
        else pure a)
      if ← accept (.p '|') then
        pure (.alt a (← alternatives m n))
      else pure (.alt a .altEnd)

/-! ## Declarations -/

/-- `name: type`, `name: type = ..` -/
def field (terms : Terms) (n : Nat) : R (Option Field) := do
  let x ← ident
  punct ':'
  let t ← type terms n
  if ← accept (.p '=') then
    if (← peek) = some (.id c!"marker") then
      let _ ← next
      pure (some ⟨x, t, .marker⟩)
    else
      let m ← mac terms n
      pure (some ⟨x, t, .mac m⟩)
  else pure (some ⟨x, t, .weedle⟩)

/-- `<'a>`, `<T>`, `<'a, T: Parse<'a>>`: the names of the types. -/
def params (n : Nat) : R (List Str) := do
  if ← accept (.p '<') then
    commas (do
      match ← next with
      | .life _ => pure none
      | .id s =>
        if ← accept (.p ':') then
          let _ ← type [] n
          pure (some s)
        else pure (some s)
      | _ => fail) '>' n
  else pure []

mutual

/-- The declarations in `ast_types!`, with the type that is declared, and the declarations in it. -/
def declaration (terms : Terms) : Nat → R (RTy × List Decl)
  | 0 => fail
  | n + 1 => do
    let k ← ident
    let s ← ident
    let ps ← params n
    if k = c!"struct" then
      if (← peek) = some (.id c!"where") then
        let _ ← next
        let _ ← bracketed
        pure ()
      if ← accept (.p '{') then
        pure (.path0 s, [.struct s ps (← commas (field terms n) '}' n)])
      else
        punct '('
        let t ← type terms n
        if ← accept (.p '=') then
          let m ← mac terms n
          punct ','
          punct ')'
          pure (.path0 s, [.newtype s m])
        else
          punct ','
          punct ')'
          pure (.path0 s, [.newtype s (.weedle t)])
    else if k = c!"enum" then
      punct '{'
      let vs ← commas (variant terms n) '}' n
      pure (.path0 s, .enum s (vs.map (·.1)) :: vs.flatMap (·.2))
    else fail

/-- `Name(type)`, `Name(struct ..)`, `Name(enum ..)` -/
def variant (terms : Terms) : Nat → R (Option ((Str × RTy) × List Decl))
  | 0 => fail
  | n + 1 => do
    attributes n
    let v ← ident
    punct '('
    if (← peek) = some (.id c!"struct") ∨ (← peek) = some (.id c!"enum") then
      let (t, ds) ← declaration terms n
      punct ')'
      pure (some ((v, t), ds))
    else
      let t ← type terms n
      punct ')'
      pure (some ((v, t), []))

end

/-- The declarations up to the closing brace, which is taken. -/
def declarations (terms : Terms) (n : Nat) : Nat → R (List Decl)
  | 0 => fail
  | k + 1 => do
    attributes n
    if ← accept (.p '}') then pure []
    else
      let (_, ds) ← declaration terms n
      pure (ds ++ (← declarations terms n k))

/-- `Name => "text",` in `generate_terms!` and `generate_terms_for_names!`,
`/repo/src/term.rs:1-53`: `do_parse!(ws!(tag!($tok)) >> ($typ))`. -/
def terminal (tag : Str → Mac) : R (Option Decl) := do
  let s ← ident
  punct '='
  punct '>'
  match ← next with
  | .str t => pure (some (.fn s [] (.bind none (.ws (tag t)) (.ret (.token s)))))
  | _ => fail

/-- `(tokens) => { $crate::term::Name };` -/
def rules : Nat → R Terms
  | 0 => fail
  | n + 1 => do
    if ← accept (.p '}') then pure []
    else
      punct '('
      let ts ← group 0
      punct '='
      punct '>'
      punct '{'
      punct '$'
      let s ← segments n (← ident)
      punct '}'
      punct ';'
      pure ((ts, s) :: (← rules n))

/-- `impl<..> Parse<'a> for T { parser!(m); }` -/
def implementation (terms : Terms) (n : Nat) : R Decl := do
  let ps ← params n
  word c!"Parse"
  let _ ← params n
  word c!"for"
  let t ← type terms n
  punct '{'
  word c!"parser"
  punct '!'
  punct '('
  let m ← mac terms n
  punct ')'
  punct ';'
  punct '}'
  match t with
  | .path0 s | .path1 s _ | .path2 s _ _ | .path3 s _ _ _ => pure (.fn s ps m)

/-- `pub(crate) fn sp(input: &str) -> IResult<&str, &str> { macro!(input, ..) }` -/
def function (n : Nat) : R (List Decl) := do
  let s ← ident
  let _ ← bracketed
  skipTo '{'
  if s = c!"sp" then
    match ← next, ← next, ← next, ← next, ← next with
    | .id m, .p '!', .p '(', .id _, .p ',' =>
      let m ← mac.body [] n (mac [] n) m
      punct ')'
      punct '}'
      pure [.fn s [] m]
    | _, _, _, _, _ => fail
  else
    let _ ← group 0
    pure []

/-- The items of a file. -/
def items (terms : Terms) (n : Nat) : Nat → R (List Decl)
  | 0 => fail
  | k + 1 => do
    match ← peek with
    | none => pure []
    | _ =>
      let ds ← item
      pure (ds ++ (← items terms n k))
where
  item : R (List Decl) := do
    match ← next with
    | .p '#' =>
      let _ ← accept (.p '!')
      let _ ← bracketed
      pure []
    | .id s =>
      if s = c!"pub" then
        if (← peek) = some (.p '(') then
          let _ ← bracketed
          pure []
        else pure []
      else if s = c!"use" ∨ s = c!"mod" ∨ s = c!"extern" then
        skipTo ';'
        pure []
      else if s = c!"trait" then
        skipTo '{'
        let _ ← group 0
        pure []
      else if s = c!"type" then
        let s ← ident
        let _ ← params n
        punct '='
        let t ← type terms n
        punct ';'
        pure [.alias s t]
      else if s = c!"fn" then function n
      else if s = c!"impl" then
        pure [← implementation terms n]
      else
        punct '!'
        if s = c!"macro_rules" then
          let _ ← ident
          let _ ← bracketed
          let _ ← accept (.p ';')
          pure []
        else if s = c!"ast_types" then
          punct '{'
          declarations terms n n
        else if s = c!"generate_terms" then
          punct '{'
          commas (terminal .tag) '}' n
        else if s = c!"generate_terms_for_names" then
          punct '{'
          commas (terminal .identTag) '}' n
        else fail
    | _ => fail

/-- The rules of `term!`, somewhere in the file. -/
def termRules (n : Nat) : List Tok → Option Terms
  | .id a :: .p '!' :: .id b :: .p '{' :: ts =>
    if a = c!"macro_rules" ∧ b = c!"term" then (rules n ts).map (·.1) else termRules n ts
  | _ :: ts => termRules n ts
  | [] => none

/-- The declarations in the text of a file. -/
def readFile (terms : Terms) (lines : List Str) : Option (List Decl) := do
  let ts ← lexLines lines
  let (ds, _) ← items terms 200 200 ts
  some ds

def readTerms (lines : List Str) : Option Terms := do
  termRules 200 (← lexLines lines)

end Verif.Source
