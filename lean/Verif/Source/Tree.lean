import Verif.Source.Read

/-!
# Macros

Token trees, and what `macro_rules!` does with them: the rules of a macro are tried in the order in which they
are written; the first whose pattern matches is transcribed.

Simplifications: what matched a fragment like `$t:ty` is inserted as its tokens (in rustc it is an opaque tree, which can be
matched again by a fragment only); variables introduced by macros are not renamed (hygiene); of an expression
`$e:expr` only the extent is found, up to the next `,` or `;`. In rustc a fragment that cannot be parsed is an error; here
the rule does not match. For a crate that compiles there is no difference.
-/

namespace Verif.Source

/-- Token trees. A group has its opening bracket.
rustc on the macros of `/repo/src/macros.rs:1-552` and `/repo/src/term.rs:1-53`. -/
inductive TT where
  | tok (t : Tok)
  | grp (c : Char) (ts : List TT)

/-- The bracket that closes a group; tokens of `/repo/src/*.rs`. -/
def closer (c : Char) : Char := if c == '(' then ')' else if c == '[' then ']' else '}'

/-- Trees from tokens: the trees read so far, last first, of the current group and of the groups around it.
rustc on the macros of `/repo/src/macros.rs:1-552` and `/repo/src/term.rs:1-53`. -/
def build : List (Char × List TT) → List TT → List Tok → Option (List TT)
  | [], acc, [] => some acc.reverse
  | _ :: _, _, [] => none
  | st, acc, .p c :: ts =>
    if isOpen c then build ((c, acc) :: st) [] ts
    else if isClose c then
      match st with
      | (d, acc') :: st => if closer d == c then build st (.grp d acc.reverse :: acc') ts else none
      | [] => none
    else build st (.tok (.p c) :: acc) ts
  | st, acc, t :: ts => build st (.tok t :: acc) ts

/-- The tokens of a line; a doc comment is an attribute.
The `$(#[$attr:meta])*` of `/repo/src/macros.rs:57-552` matches doc comments. -/
def lexLine (l : Str) : Option (List Tok) :=
  match l.dropWhile (· == ' ') with
  | '/' :: '/' :: '/' :: _ => some [.p '#', .p '[', .id c!"doc", .p ']']
  | _ => lex (l.length + 1) l

/-- The tokens of the lines of a file of `/repo/src`. -/
def lexDoc : List Str → Option (List Tok)
  | [] => some []
  | l :: ls =>
    match lexLine l, lexDoc ls with
    | some a, some b => some (a ++ b)
    | _, _ => none

/-- The token trees of a file. rustc on the macros of `/repo/src/macros.rs:1-552` and `/repo/src/term.rs:1-53`. -/
def trees (lines : List Str) : Option (List TT) :=
  match lexDoc lines with
  | some ts => build [] [] ts
  | none => none

mutual

/-- The tokens of a tree. rustc on the macros of `/repo/src/macros.rs:1-552` and `/repo/src/term.rs:1-53`. -/
def TT.flat : TT → List Tok
  | .tok t => [t]
  | .grp c ts => .p c :: (flats ts ++ [.p (closer c)])

/-- The tokens of trees; rustc on `/repo/src/*.rs`. -/
def flats : List TT → List Tok
  | [] => []
  | t :: ts => t.flat ++ flats ts

end

/-! ## Comparison

Like `=`, but quick for the kernel; these model no code of `/repo`. -/

def sameChar (a b : Char) : Bool := Nat.beq a.toNat b.toNat

def sameStr : Str → Str → Bool
  | [], [] => true
  | a :: s, b :: t => sameChar a b && sameStr s t
  | _, _ => false

def Tok.same : Tok → Tok → Bool
  | .id s, .id t => sameStr s t
  | .p c, .p d => sameChar c d
  | .str s, .str t => sameStr s t
  | .chr c, .chr d => sameChar c d
  | .life s, .life t => sameStr s t
  | _, _ => false

def isP (c : Char) : TT → Bool
  | .tok (.p d) => sameChar c d
  | _ => false

def isW (s : Str) : TT → Bool
  | .tok (.id t) => sameStr s t
  | _ => false

def memStr (x : Str) : List Str → Bool
  | [] => false
  | y :: l => sameStr x y || memStr x l

def get? {α : Type} (x : Str) : List (Str × α) → Option α
  | [] => none
  | (y, a) :: l => if sameStr x y then some a else get? x l

/-! ## Fragments -/

/-- A match and what follows it. rustc on the macros of `/repo/src/macros.rs:1-552` and `/repo/src/term.rs:1-53`. -/
abbrev Cut := Option (List TT × List TT)

/-- Put trees in front of a match. rustc on the macros of `/repo/src/macros.rs:1-552` and `/repo/src/term.rs:1-53`. -/
def Cut.front (as : List TT) : Cut → Cut
  | some (a, b) => some (as ++ a, b)
  | none => none

mutual

/-- The extent of a type. For `$t:ty`, `/repo/src/macros.rs:52`. -/
def cutType : Nat → List TT → Cut
  | 0, _ => none
  | _ + 1, [] => none
  | n + 1, .tok (.p c) :: ts =>
    if sameChar c '&' then
      match ts with
      | .tok (.life a) :: ts => Cut.front [.tok (.p c), .tok (.life a)] (cutType n ts)
      | _ => none
    else none
  | _ + 1, .grp c a :: ts => if sameChar c '(' then some ([.grp c a], ts) else none
  | n + 1, .tok (.id s) :: ts =>
    if sameStr s c!"struct" || sameStr s c!"enum" then none
    else
      match ts with
      | .tok (.p c) :: ts =>
        if sameChar c '!' then
          match ts with
          | .grp d a :: ts => some ([.tok (.id s), .tok (.p c), .grp d a], ts)
          | _ => none
        else if sameChar c '<' then Cut.front [.tok (.id s), .tok (.p c)] (cutArgs n ts)
        else if sameChar c ':' then
          match ts with
          | t :: ts' =>
            if isP ':' t then Cut.front [.tok (.id s), .tok (.p c), t] (cutType n ts')
            else some ([.tok (.id s)], .tok (.p c) :: ts)
          | _ => some ([.tok (.id s)], .tok (.p c) :: ts)
        else some ([.tok (.id s)], .tok (.p c) :: ts)
      | _ => some ([.tok (.id s)], ts)
  | _ + 1, _ => none

/-- The arguments of a type, up to and with `>`. For `$t:ty`, `/repo/src/macros.rs:52`. -/
def cutArgs : Nat → List TT → Cut
  | 0, _ => none
  | n + 1, ts =>
    match ts with
    | [] => none
    | .tok (.life a) :: ts => Cut.front [.tok (.life a)] (cutArgs n ts)
    | t :: ts' =>
      if isP '>' t then some ([t], ts')
      else if isP ',' t then Cut.front [t] (cutArgs n ts')
      else
        match cutType n ts with
        | some (a, ts) => Cut.front a (cutArgs n ts)
        | none => none

end

/-- The extent of an expression. For `$i:expr`, `/repo/src/macros.rs:2`. -/
def cutExpr : List TT → List TT × List TT
  | [] => ([], [])
  | t :: ts =>
    if isP ',' t || isP ';' t then ([], t :: ts)
    else
      match cutExpr ts with
      | (a, b) => (t :: a, b)

/-- The kinds of fragments. Those of `/repo/src/macros.rs:1-552`: `ident`, `tt`, `ty`, `expr`, `meta`. -/
inductive Kind where
  | tt | ident | ty | expr | attr
  deriving DecidableEq

/-- `:ident`, `:tt`, `:ty`, `:expr`, `:meta` in `/repo/src/macros.rs:1-552`. -/
def readKind (s : Str) : Option Kind :=
  if sameStr s c!"tt" then some .tt
  else if sameStr s c!"ident" then some .ident
  else if sameStr s c!"ty" then some .ty
  else if sameStr s c!"expr" then some .expr
  else if sameStr s c!"meta" then some .attr
  else none

/-- What matches `$x:kind`. rustc on the macros of `/repo/src/macros.rs:1-552` and `/repo/src/term.rs:1-53`. -/
def Kind.cut (n : Nat) : Kind → List TT → Cut
  | .tt, t :: ts => some ([t], ts)
  | .ident, .tok (.id s) :: ts => some ([.tok (.id s)], ts)
  | .ty, ts => cutType n ts
  | .expr, ts =>
    match cutExpr ts with
    | ([], _) => none
    | (a, b) => some (a, b)
  | .attr, .tok (.id s) :: ts =>
    match ts with
    | .grp c a :: ts => some ([.tok (.id s), .grp c a], ts)
    | _ => some ([.tok (.id s)], ts)
  | _, _ => none

/-! ## Rules -/

/-- The left side of a rule. For instance `/repo/src/macros.rs:222-230`. -/
inductive Pat where
  | tok (t : Tok)
  | grp (c : Char) (ps : List Pat)
  /-- `$x:kind` -/
  | var (x : Str) (k : Kind)
  /-- `$(..)sep*` or, with at least one, `$(..)sep+`; `xs` are the variables in it -/
  | rep (xs : List Str) (ps : List Pat) (sep : Option Tok) (req : Bool)

/-- The right side of a rule. For instance `/repo/src/macros.rs:231-235`. -/
inductive Tmpl where
  | tok (t : Tok)
  | grp (c : Char) (ts : List Tmpl)
  /-- `$x` -/
  | var (x : Str)
  /-- `$(..)sep*` -/
  | rep (xs : List Str) (ts : List Tmpl) (sep : Option Tok)

/-- One rule of a macro of `/repo/src/macros.rs:1-552`. -/
structure Rule where
  pat : List Pat
  body : List Tmpl

/-- What follows `$(..)`: the separator, whether at least one is required, and the rest.
`$(..)*`, `$(..)|*`, `$(..),*` in `/repo/src/macros.rs:57-552` and `/repo/src/term.rs:1-53`. -/
def repetition : List TT → Option (Option Tok × Bool × List TT)
  | t :: ts =>
    if isP '*' t then some (none, false, ts)
    else if isP '+' t then some (none, true, ts)
    else
      match t, ts with
      | .tok t, u :: ts =>
        if isP '*' u then some (some t, false, ts)
        else if isP '+' u then some (some t, true, ts)
        else none
      | _, _ => none
  | [] => none

/-- The variables `$x` in trees. rustc on the macros of `/repo/src/macros.rs:1-552` and `/repo/src/term.rs:1-53`. -/
def variablesOf : Nat → List TT → List Str
  | 0, _ => []
  | _ + 1, [] => []
  | n + 1, .grp _ a :: ts => variablesOf n a ++ variablesOf n ts
  | n + 1, .tok t :: ts =>
    if isP '$' (.tok t) then
      match ts with
      | .tok (.id x) :: ts => x :: variablesOf n ts
      | _ => variablesOf n ts
    else variablesOf n ts

/-- rustc on the macros of `/repo/src/macros.rs:1-552` and `/repo/src/term.rs:1-53`. -/
def readPat : Nat → List TT → Option (List Pat)
  | 0, _ => none
  | _ + 1, [] => some []
  | n + 1, .grp c a :: ts =>
    match readPat n a, readPat n ts with
    | some a, some r => some (.grp c a :: r)
    | _, _ => none
  | n + 1, .tok t :: ts =>
    if isP '$' (.tok t) then
      match ts with
      | .grp _ a :: ts =>
        match repetition ts with
        | some (sep, req, ts) =>
          match readPat n a, readPat n ts with
          | some ps, some r => some (.rep (variablesOf n a) ps sep req :: r)
          | _, _ => none
        | none => none
      | .tok (.id x) :: _ :: .tok (.id k) :: ts =>
        match readKind k, readPat n ts with
        | some k, some r => some (.var x k :: r)
        | _, _ => none
      | _ => none
    else
      match readPat n ts with
      | some r => some (.tok t :: r)
      | none => none

/-- `$crate` is written `crate`. `$crate`: `/repo/src/macros.rs:45`. -/
def readTmpl : Nat → List TT → Option (List Tmpl)
  | 0, _ => none
  | _ + 1, [] => some []
  | n + 1, .grp c a :: ts =>
    match readTmpl n a, readTmpl n ts with
    | some a, some r => some (.grp c a :: r)
    | _, _ => none
  | n + 1, .tok t :: ts =>
    if isP '$' (.tok t) then
      match ts with
      | .grp _ a :: ts =>
        match repetition ts with
        | some (sep, _, ts) =>
          match readTmpl n a, readTmpl n ts with
          | some b, some r => some (.rep (variablesOf n a) b sep :: r)
          | _, _ => none
        | none => none
      | .tok (.id x) :: ts =>
        match readTmpl n ts with
        | some r => some ((if sameStr x c!"crate" then .tok (.id x) else .var x) :: r)
        | _ => none
      | _ => none
    else
      match readTmpl n ts with
      | some r => some (.tok t :: r)
      | none => none

/-- `(pattern) => {body};`. For instance `/repo/src/macros.rs:51-55`. -/
def readRules (n : Nat) : List TT → Option (List Rule)
  | [] => some []
  | .grp _ p :: .tok (.p '=') :: .tok (.p '>') :: .grp _ b :: ts =>
    match readPat n p, readTmpl n b, readRules n ts with
    | some p, some b, some rs => some (⟨p, b⟩ :: rs)
    | _, _, _ => none
  | t :: ts => if isP ';' t then readRules n ts else none

/-- The macros of `/repo/src/macros.rs:1-552`, `/repo/src/term.rs:1-53,315-571` and `/repo/src/whitespace.rs:20-31`. -/
abbrev Macros := List (Str × List Rule)

/-- The macros that are defined in a file.
rustc on the macros of `/repo/src/macros.rs:1-552` and `/repo/src/term.rs:1-53`. -/
def readMacros (n : Nat) : List TT → Option Macros
  | .tok (.id a) :: .tok (.p '!') :: .tok (.id x) :: .grp _ r :: ts =>
    if sameStr a c!"macro_rules" then
      match readRules n r, readMacros n ts with
      | some rs, some ms => some ((x, rs) :: ms)
      | _, _ => none
    else readMacros n ts
  | _ :: ts => readMacros n ts
  | [] => some []

/-! ## Matching -/

/-- What a variable stands for. rustc on the macros of `/repo/src/macros.rs:1-552` and `/repo/src/term.rs:1-53`. -/
inductive Bound where
  | one (ts : List TT)
  | many (bs : List Bound)

/-- What the variables of a rule (`/repo/src/macros.rs:1-552`) stand for. -/
abbrev Bounds := List (Str × Bound)

/-- The values of a variable in the iterations of a repetition.
rustc on the macros of `/repo/src/macros.rs:1-552` and `/repo/src/term.rs:1-53`. -/
def collect (x : Str) : List Bounds → List Bound
  | [] => []
  | b :: bs =>
    match get? x b with
    | some v => v :: collect x bs
    | none => collect x bs

mutual

/-- Match a pattern against trees. rustc on the macros of `/repo/src/macros.rs:1-552` and `/repo/src/term.rs:1-53`. -/
def matchPat : Nat → List Pat → List TT → Option (Bounds × List TT)
  | 0, _, _ => none
  | _ + 1, [], ts => some ([], ts)
  | n + 1, p :: ps, ts =>
    match p with
    | .tok p =>
      match ts with
      | .tok t :: ts => if p.same t then matchPat n ps ts else none
      | _ => none
    | .grp c p =>
      match ts with
      | .grp d a :: ts =>
        if sameChar c d then
          match matchPat n p a with
          | some (b, []) =>
            match matchPat n ps ts with
            | some (b', ts) => some (b ++ b', ts)
            | none => none
          | _ => none
        else none
      | _ => none
    | .var x k =>
      match k.cut n ts with
      | some (a, ts) =>
        match matchPat n ps ts with
        | some (b, ts) => some ((x, .one a) :: b, ts)
        | none => none
      | none => none
    | .rep xs body sep req =>
      match matchRep n body sep ts with
      | (bs, ts) =>
        if req && bs.isEmpty then none
        else
          match matchPat n ps ts with
          | some (b, ts) => some (xs.map (fun x => (x, .many (collect x bs))) ++ b, ts)
          | none => none

/-- Match a pattern as often as possible. `$($rest:tt)*` in `/repo/src/macros.rs:57-552`. -/
def matchRep : Nat → List Pat → Option Tok → List TT → List Bounds × List TT
  | 0, _, _, ts => ([], ts)
  | n + 1, body, sep, ts =>
    match matchPat n body ts with
    | none => ([], ts)
    | some (b, ts) =>
      match sep with
      | none =>
        match matchRep n body sep ts with
        | (bs, ts) => (b :: bs, ts)
      | some t =>
        match ts with
        | .tok t' :: ts' =>
          if t.same t' then
            match matchRep n body sep ts' with
            | ([], _) => ([b], ts)
            | (bs, ts) => (b :: bs, ts)
          else ([b], ts)
        | _ => ([b], ts)

end

/-! ## Transcription -/

/-- The variables `xs`. rustc on the macros of `/repo/src/macros.rs:1-552` and `/repo/src/term.rs:1-53`. -/
def restrict (xs : List Str) : Bounds → Bounds
  | [] => []
  | (x, v) :: b => if memStr x xs then (x, v) :: restrict xs b else restrict xs b

/-- The first iteration, and the others.
rustc on the macros of `/repo/src/macros.rs:1-552` and `/repo/src/term.rs:1-53`. -/
def iteration : Bounds → Option (Bounds × Bounds)
  | [] => some ([], [])
  | (x, v) :: b =>
    match iteration b with
    | none => none
    | some (h, t) =>
      match v with
      | .one a => some ((x, .one a) :: h, (x, .one a) :: t)
      | .many (v :: vs) => some ((x, v) :: h, (x, .many vs) :: t)
      | .many [] => none

/-- The number of iterations. rustc on the macros of `/repo/src/macros.rs:1-552` and `/repo/src/term.rs:1-53`. -/
def count : Bounds → Nat
  | [] => 0
  | (_, .many bs) :: _ => bs.length
  | (_, .one _) :: b => count b

/-- Trees one after the other, with the separator of `$(..)|*` (`/repo/src/macros.rs:497`) between them. -/
def joinTrees (sep : Option Tok) : List (List TT) → List TT
  | [] => []
  | [a] => a
  | a :: as =>
    match sep with
    | none => a ++ joinTrees sep as
    | some t => a ++ .tok t :: joinTrees sep as

mutual

/-- The right side of a rule with values for the variables.
rustc on the macros of `/repo/src/macros.rs:1-552` and `/repo/src/term.rs:1-53`. -/
def transcribe : Nat → Bounds → List Tmpl → Option (List TT)
  | 0, _, _ => none
  | _ + 1, _, [] => some []
  | n + 1, b, t :: ts =>
    match transcribe n b ts with
    | none => none
    | some r =>
      match t with
      | .tok t => some (.tok t :: r)
      | .grp c a =>
        match transcribe n b a with
        | some a => some (.grp c a :: r)
        | none => none
      | .var x =>
        match get? x b with
        | some (.one a) => some (a ++ r)
        | _ => none
      | .rep xs body sep =>
        let b := restrict xs b
        match iterations n b body (count b) with
        | some as => some (joinTrees sep as ++ r)
        | none => none

/-- The right side of a rule for each iteration of `$(..)*` (`/repo/src/macros.rs:1-552`). -/
def iterations : Nat → Bounds → List Tmpl → Nat → Option (List (List TT))
  | 0, _, _, _ => none
  | _ + 1, _, _, 0 => some []
  | n + 1, b, body, k + 1 =>
    match iteration b with
    | some (h, t) =>
      match transcribe n h body, iterations n t body k with
      | some a, some as => some (a :: as)
      | _, _ => none
    | none => none

end

/-! ## Expansion -/

/-- The first rule that matches. `/repo/src/macros.rs:57-181` depends on this order. -/
def applyRules (n : Nat) (ts : List TT) : List Rule → Option (List TT)
  | [] => none
  | r :: rs =>
    match matchPat n r.pat ts with
    | some (bs, []) => transcribe n bs r.body
    | _ => applyRules n ts rs

/-- `name!(ts)`, for a macro of the crate.
`/repo/src/macros.rs:1-552`, `/repo/src/term.rs:1-53,315-571`, `/repo/src/whitespace.rs:20-31`. -/
def expand (ms : Macros) (n : Nat) (name : Str) (ts : List TT) : Option (List TT) :=
  match get? name ms with
  | some rs => applyRules n ts rs
  | none => none

end Verif.Source
