import Verif.Model.Parse

/-!
# The terminals, counting the characters they look at

The parsers of `Verif/Model/Nom.lean` and `Verif/Model/Lex.lean` once more, with a counter: each returns, beside its result, how
often it has looked at a character of the input (or found that there is none). Property C67 shows that the results are those of
`Verif/Model/Lex.lean`.

What is counted is our reading of nom, as are the results: `tag` compares character by character up to the first difference,
`take_while` tests every character up to the first one that does not fit, `take_until` tries its text at every place up to the
first occurrence. (Rust's `str::find` is faster than that.) `recognize` and the test of `many0` for empty matches work on lengths
and look at no character.
-/

namespace Verif.Count
open Nom

/-- A parser with its counter: `IResult` (`/repo/src/lib.rs:93`), and the number of looks. -/
abbrev C (α : Type) := Str → Nat × Res Char α

variable {α β : Type}

/-- Success without consuming, `/repo/src/common.rs:10`. -/
def ret (a : α) : C α := fun i => (0, .ok i a)

/-- Sequencing, the step `>>` of `do_parse!` (`/repo/src/common.rs:19`). -/
def seq (p : C α) (f : α → C β) : C β := fun i =>
  match (p i).2 with
  | .ok i1 a => ((p i).1 + (f a i1).1, (f a i1).2)
  | .err e => ((p i).1, .err e)
  | .diverge => ((p i).1, .diverge)

/-- `map!`, `/repo/src/whitespace.rs:11`. -/
def map (f : α → β) (p : C α) : C β := seq p fun a => ret (f a)

/-- One step of `alt!`, `/repo/src/literal.rs:85-88`. -/
def orElse (p q : C α) : C α := fun i =>
  match (p i).2 with
  | .err (.error _ _) => ((p i).1 + (q i).1, (q i).2)
  | r => ((p i).1, r)

/-- The end of the alternatives of `alt!`, `/repo/src/macros.rs:496-498`. -/
def altEnd : C α := fun i => (0, .err (.error i .alt))

/-- `alt!(p1 | p2 | ...)`, `/repo/src/literal.rs:85-88`, `/repo/src/whitespace.rs:6-15`. -/
def alt : List (C α) → C α
  | [] => altEnd
  | p :: ps => orElse p (alt ps)

/-- `opt!`, `/repo/src/common.rs:83`. -/
def opt (p : C α) : C (Option α) := fun i =>
  match (p i).2 with
  | .ok i1 a => ((p i).1, .ok i1 (some a))
  | .err (.error _ _) => ((p i).1, .ok i none)
  | .err e => ((p i).1, .err e)
  | .diverge => ((p i).1, .diverge)

/-- The loop of `many0!` (`/repo/src/whitespace.rs:6`), with an iteration bound as in `Nom.many0Loop`. -/
def many0Loop (p : C α) : Nat → C (List α)
  | 0, _ => (0, .diverge)
  | n + 1, i =>
    match (p i).2 with
    | .err (.error _ _) => ((p i).1, .ok i [])
    | .err e => ((p i).1, .err e)
    | .diverge => ((p i).1, .diverge)
    | .ok i1 a =>
      if i1 = i then ((p i).1, .err (.error i .many0))
      else ((p i).1 + (many0Loop p n i1).1, consRes a (many0Loop p n i1).2)

/-- `many0!(p)`, `/repo/src/whitespace.rs:6`. -/
def many0 (p : C α) : C (List α) := fun i => many0Loop p (i.length + 1) i

/-- `recognize!(p)`, `/repo/src/common.rs:85`. -/
def recognize (p : C α) : C Str := fun i =>
  match (p i).2 with
  | .ok i1 _ => ((p i).1, .ok i1 (i.take (i.length - i1.length)))
  | .err e => ((p i).1, .err e)
  | .diverge => ((p i).1, .diverge)

/-- Comparing a text with the beginning of another (`tag!`, `/repo/src/macros.rs:1-5`): the looks up to the first difference. -/
def compared : Str → Str → Nat
  | [], _ => 0
  | _ :: _, [] => 1
  | a :: t, b :: i => if a = b then compared t i + 1 else 1

/-- `tag!(t)`, `/repo/src/macros.rs:1-5`. -/
def tag (t : Str) : C Str := fun i => (compared t i, Nom.tag t i)

/-- `take_while!(f)`, `/repo/src/macros.rs:7-14`. -/
def takeWhile (f : Char → Bool) : C Str := fun i => ((i.takeWhile f).length + 1, Nom.takeWhile f i)

/-- `take_while1!(f)`, `/repo/src/macros.rs:16-23`. -/
def takeWhile1 (f : Char → Bool) : C Str := fun i => ((i.takeWhile f).length + 1, Nom.takeWhile1 f i)

/-- Looking for `t`, place by place (`take_until!`, `/repo/src/macros.rs:25-29`). -/
def searched (t : Str) : Str → Nat
  | [] => compared t []
  | c :: i => compared t (c :: i) + if t.isPrefixOf (c :: i) then 0 else searched t i

/-- `take_until!(t)`, `/repo/src/macros.rs:25-29`. -/
def takeUntil (t : Str) : C Str := fun i => (searched t i, Nom.takeUntil t i)

/-- `char!(c)`, `/repo/src/macros.rs:37-41`. -/
def char (c : Char) : C Char := fun i => (1, Nom.char c i)

/-- `one_of!(cs)`, `/repo/src/macros.rs:31-35`. -/
def oneOf (cs : Str) : C Char := fun i => (1, Nom.oneOf cs i)

/-! ## `/repo/src/whitespace.rs` -/

/-- `/repo/src/whitespace.rs:8` -/
def lineComment : C Unit :=
  seq (tag c!"//") fun _ => seq (takeUntil c!"\n") fun _ => seq (char '\n') fun _ => ret ()

/-- `/repo/src/whitespace.rs:11` -/
def whitespace : C Unit := map (fun _ => ()) (takeWhile1 isWs)

/-- `/repo/src/whitespace.rs:14` -/
def blockComment : C Unit :=
  seq (tag c!"/*") fun _ => seq (takeUntil c!"*/") fun _ => seq (tag c!"*/") fun _ => ret ()

/-- `/repo/src/whitespace.rs:3-17` -/
def sp : C Str := recognize (many0 (alt [lineComment, whitespace, blockComment]))

/-- `/repo/src/whitespace.rs:20-31` -/
def ws (p : C α) : C α := seq sp fun _ => seq p fun s => seq sp fun _ => ret s

/-! ## `/repo/src/term.rs`, `/repo/src/common.rs`, `/repo/src/literal.rs` -/

/-- `/repo/src/term.rs:18-36`; the test of the character behind the word is one look. -/
def identTag (t : Str) : C Str := fun i => (compared t i + 1, Verif.identTag t i)

/-- `/repo/src/term.rs:8-13` -/
def punctP (p : Punct) : C Unit := map (fun _ => ()) (ws (tag p.text))

/-- `/repo/src/term.rs:45-50` -/
def kwP (k : Kw) : C Unit := map (fun _ => ()) (ws (identTag k.text))

/-- `/repo/src/common.rs:80-92` -/
def identP : C Str :=
  ws (seq (opt (char '_')) fun _ =>
      seq (recognize (seq (takeWhile1 Char.isAlpha) fun _ =>
                      seq (takeWhile isIdentChar) fun _ => ret ())) fun id =>
      ret id)

/-- `/repo/src/literal.rs:7-14` -/
def decP : C Str :=
  ws (recognize (
    seq (opt (char '-')) fun _ =>
    seq (oneOf c!"123456789") fun _ =>
    seq (takeWhile Char.isDigit) fun _ => ret ()))

/-- `/repo/src/literal.rs:17-25` -/
def hexP : C Str :=
  ws (recognize (
    seq (opt (char '-')) fun _ =>
    seq (char '0') fun _ =>
    seq (alt [char 'x', char 'X']) fun _ =>
    seq (takeWhile isHexDigit) fun _ => ret ()))

/-- `/repo/src/literal.rs:28-35` -/
def octP : C Str :=
  ws (recognize (
    seq (opt (char '-')) fun _ =>
    seq (char '0') fun _ =>
    seq (takeWhile isOctDigit) fun _ => ret ()))

/-- `/repo/src/literal.rs:42-49` -/
def stringP : C Str :=
  ws (seq (char '"') fun _ =>
      seq (takeWhile fun c => c != '"') fun s =>
      seq (char '"') fun _ => ret s)

/-- `/repo/src/literal.rs:103-108` -/
def floatIntDot : C Unit :=
  seq (takeWhile1 Char.isDigit) fun _ =>
  seq (char '.') fun _ =>
  seq (takeWhile Char.isDigit) fun _ => ret ()

/-- `/repo/src/literal.rs:110-115` -/
def floatDotInt : C Unit :=
  seq (takeWhile Char.isDigit) fun _ =>
  seq (char '.') fun _ =>
  seq (takeWhile1 Char.isDigit) fun _ => ret ()

/-- `/repo/src/literal.rs:119-122,130-133` -/
def floatExp : C Unit :=
  seq (alt [char 'e', char 'E']) fun _ =>
  seq (opt (alt [char '+', char '-'])) fun _ =>
  seq (takeWhile1 Char.isDigit) fun _ => ret ()

/-- `/repo/src/literal.rs:96-138` -/
def floatP : C Str :=
  ws (recognize (
    seq (opt (char '-')) fun _ =>
    seq (alt [
      seq (alt [floatIntDot, floatDotInt]) fun _ =>
        seq (opt floatExp) fun _ => ret (),
      seq (takeWhile1 Char.isDigit) fun _ =>
        seq floatExp fun _ => ret ()]) fun _ => ret ()))

/-- The terminals (`/repo/src/term.rs:8-13,45-50`, `/repo/src/common.rs:80-92`, `/repo/src/literal.rs:7-35,42-49,96-138`). -/
def leaf : ∀ α, Leaf α → C α
  | _, .punct p => punctP p
  | _, .kw k => kwP k
  | _, .ident => identP
  | _, .dec => decP
  | _, .hex => hexP
  | _, .oct => octP
  | _, .float => floatP
  | _, .string => stringP

end Verif.Count
