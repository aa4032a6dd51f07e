/-!
# The nom 5 combinators used by weedle

`/repo/Cargo.toml:14` depends on nom 5; `/repo/src/lib.rs:27-39` imports the macros
`alt, cond, do_parse, map, many0, opt, recognize, separated_list,
separated_nonempty_list, terminated`, and `/repo/src/macros.rs:1-41` wraps
`nom::bytes::complete::{tag, take_while, take_while1, take_until}` and
`nom::character::complete::{one_of, char}`.

nom itself is not part of the repository: this file is our reading of its
documented semantics and belongs to the trusted base.

Parsers are functions on lists over an arbitrary symbol type `σ`; the program is
the instance `σ = Char` (a Rust `&str` is a list of Unicode scalar values).
-/

namespace Verif

/-- Strings: a Rust `&str` (`/repo/src/lib.rs:93`) seen as its sequence of Unicode scalar values. -/
abbrev Str := List Char

/-- `c!"abc"` is the literal list `['a', 'b', 'c']`. -/
macro:max "c!" s:str : term => do
  s.getString.toList.foldrM (init := ← `(List.nil (α := Char))) fun c r =>
    `(List.cons $(Lean.Syntax.mkCharLit c) $r)

namespace Nom

/-- `nom::error::ErrorKind`, the second component of the errors of `/repo/src/lib.rs:50`; `Tag` is also named in
`/repo/src/term.rs:28`. Only the kinds that can occur here are listed. -/
inductive ErrorKind where
  | tag | char | oneOf | takeWhile1 | takeUntil | many0 | separatedList | alt
  deriving DecidableEq, Repr

/-- `nom::Err<(&str, ErrorKind)>` (re-exported in `/repo/src/lib.rs:50`). -/
inductive Err (σ : Type) where
  | incomplete
  | error (pos : List σ) (kind : ErrorKind)
  | failure (pos : List σ) (kind : ErrorKind)
  deriving Repr

/-- `nom::IResult`, `/repo/src/lib.rs:50,93`. `diverge` is not a Rust value: it stands for a call that does
not return, and appears only when a recursion bound of the model is exhausted
(shown impossible in property C01). -/
inductive Res (σ : Type) (α : Type) where
  | ok (rest : List σ) (val : α)
  | err (e : Err σ)
  | diverge
  deriving Repr

/-- `fn parse(input: &'a str) -> IResult<&'a str, Self>` (`/repo/src/lib.rs:92-94`). -/
abbrev P (σ : Type) (α : Type) := List σ → Res σ α

variable {σ α β : Type}

/-- Success without consuming: the closing `(value)` of a `do_parse!`, for instance `/repo/src/common.rs:10`. -/
def ret (a : α) : P σ α := fun i => .ok i a

/-- Sequencing, the step `>>` of `do_parse!` (`/repo/src/common.rs:19`, `/repo/src/macros.rs:268-291`): run `p`, then
`f` on the remainder. -/
def seq (p : P σ α) (f : α → P σ β) : P σ β := fun i =>
  match p i with
  | .ok i1 a => f a i1
  | .err e => .err e
  | .diverge => .diverge

/-- `map!`, `/repo/src/whitespace.rs:11`, `/repo/src/argument.rs:19`. -/
def map (f : α → β) (p : P σ α) : P σ β := seq p fun a => ret (f a)

/-- One step of `alt!` (`/repo/src/macros.rs:496-498`, `/repo/src/literal.rs:85-88`): only a recoverable `Err::Error` moves on to the next
alternative. -/
def orElse (p q : P σ α) : P σ α := fun i =>
  match p i with
  | .err (.error _ _) => q i
  | r => r

/-- The end of the alternatives of `alt!` (`/repo/src/macros.rs:496-498`): the error `(input, ErrorKind::Alt)`. -/
def altEnd : P σ α := fun i => .err (.error i .alt)

/-- `alt!(p1 | p2 | ...)`, `/repo/src/literal.rs:85-88`, `/repo/src/whitespace.rs:6-15`. -/
def alt : List (P σ α) → P σ α
  | [] => altEnd
  | p :: ps => orElse p (alt ps)

/-- `opt!`, `/repo/src/common.rs:6`: a recoverable error becomes `None` at the original position. -/
def opt (p : P σ α) : P σ (Option α) := fun i =>
  match p i with
  | .ok i1 a => .ok i1 (some a)
  | .err (.error _ _) => .ok i none
  | .err e => .err e
  | .diverge => .diverge

/-- `cond!(b, p)`, `/repo/src/argument.rs:20`. -/
def cond (b : Bool) (p : P σ α) : P σ (Option α) :=
  if b then map some p else ret none

/-- Put an element in front of the list returned by a later iteration: `Vec::push` in the loops of `many0!`
(`/repo/src/common.rs:15`) and `separated_list!` (`/repo/src/common.rs:63,70`). -/
def consRes (a : α) : Res σ (List α) → Res σ (List α)
  | .ok i as => .ok i (a :: as)
  | .err e => .err e
  | .diverge => .diverge

variable [DecidableEq σ]

/-- The loop of `many0!` (`/repo/src/common.rs:15`, `/repo/src/whitespace.rs:6`), with an iteration bound. nom compares the remainder
with the input and fails with `ErrorKind::Many0` on an empty match. The Rust loop
pushes on a vector, here the results are consed on the way back. -/
def many0Loop (p : P σ α) : Nat → P σ (List α)
  | 0, _ => .diverge
  | n + 1, i =>
    match p i with
    | .err (.error _ _) => .ok i []
    | .err e => .err e
    | .diverge => .diverge
    | .ok i1 a =>
      if i1 = i then .err (.error i .many0) else consRes a (many0Loop p n i1)

/-- `many0!(p)`, `/repo/src/common.rs:15`. -/
def many0 (p : P σ α) : P σ (List α) := fun i => many0Loop p (i.length + 1) i

/-- The loop of `separated_list!` (`/repo/src/common.rs:63,70`) after the first element, with an iteration bound. -/
def sepLoop (sep : P σ β) (p : P σ α) : Nat → P σ (List α)
  | 0, _ => .diverge
  | n + 1, i =>
    match sep i with
    | .err (.error _ _) => .ok i []
    | .err e => .err e
    | .diverge => .diverge
    | .ok i1 _ =>
      if i1 = i then .err (.error i1 .separatedList) else
      match p i1 with
      | .err (.error _ _) => .ok i []
      | .err e => .err e
      | .diverge => .diverge
      | .ok i2 a =>
        if i2 = i then .err (.error i2 .separatedList)
        else consRes a (sepLoop sep p n i2)

/-- `separated_list!(sep, p)`, `/repo/src/common.rs:63`: zero or more elements. -/
def separatedList (sep : P σ β) (p : P σ α) : P σ (List α) := fun i =>
  match p i with
  | .err (.error _ _) => .ok i []
  | .err e => .err e
  | .diverge => .diverge
  | .ok i1 a =>
    if i1 = i then .err (.error i1 .separatedList)
    else consRes a (sepLoop sep p (i1.length + 1) i1)

/-- `separated_nonempty_list!(sep, p)`, `/repo/src/common.rs:70`: one or more elements. -/
def separatedNonemptyList (sep : P σ β) (p : P σ α) : P σ (List α) := fun i =>
  match p i with
  | .err e => .err e
  | .diverge => .diverge
  | .ok i1 a =>
    if i1 = i then .err (.error i1 .separatedList)
    else consRes a (sepLoop sep p (i1.length + 1) i1)

/-- `terminated!(p, q)`, `/repo/src/common.rs:69-72`. -/
def terminated (p : P σ α) (q : P σ β) : P σ α := seq p fun a => seq q fun _ => ret a

/-! ## Character-level parsers -/

/-- `recognize!(p)`, `/repo/src/common.rs:85`, `/repo/src/literal.rs:8`: the consumed prefix, cut off at the offset of the remainder. -/
def recognize (p : P Char α) : P Char Str := fun i =>
  match p i with
  | .ok i1 _ => .ok i1 (i.take (i.length - i1.length))
  | .err e => .err e
  | .diverge => .diverge

/-- `tag!(t)` (`/repo/src/macros.rs:1-5`). -/
def tag (t : Str) : P Char Str := fun i =>
  if t.isPrefixOf i then .ok (i.drop t.length) t else .err (.error i .tag)

/-- `take_while!(f)` (`/repo/src/macros.rs:7-14`). -/
def takeWhile (f : Char → Bool) : P Char Str := fun i =>
  .ok (i.dropWhile f) (i.takeWhile f)

/-- `take_while1!(f)` (`/repo/src/macros.rs:16-23`). -/
def takeWhile1 (f : Char → Bool) : P Char Str := fun i =>
  match i.takeWhile f with
  | [] => .err (.error i .takeWhile1)
  | w => .ok (i.dropWhile f) w

/-- The text before the first occurrence of `t`, and the text from it on
(`&str::find`, used by the `take_until!` of `/repo/src/macros.rs:25-29`). -/
def splitAtFirst (t : Str) : Str → Option (Str × Str)
  | [] => if t.isPrefixOf [] then some ([], []) else none
  | c :: cs =>
    if t.isPrefixOf (c :: cs) then some ([], c :: cs)
    else match splitAtFirst t cs with
      | some (a, b) => some (c :: a, b)
      | none => none

/-- `take_until!(t)` (`/repo/src/macros.rs:25-29`): stops before `t`. -/
def takeUntil (t : Str) : P Char Str := fun i =>
  match splitAtFirst t i with
  | some (a, b) => .ok b a
  | none => .err (.error i .takeUntil)

/-- `char!(c)` (`/repo/src/macros.rs:37-41`). -/
def char (c : Char) : P Char Char := fun i =>
  match i with
  | x :: xs => if x = c then .ok xs c else .err (.error i .char)
  | [] => .err (.error i .char)

/-- `one_of!(cs)` (`/repo/src/macros.rs:31-35`). -/
def oneOf (cs : Str) : P Char Char := fun i =>
  match i with
  | x :: xs => if x ∈ cs then .ok xs x else .err (.error i .oneOf)
  | [] => .err (.error i .oneOf)

end Nom
end Verif
