import Verif.Model.Lex
import Verif.Source.Syntax

/-!
# The meaning of the declarations

What `ast_types!` and the other macros of `/repo/src/macros.rs` make of the declarations, in terms of the
combinators of nom (`Verif/Model/Nom.lean`).
-/

namespace Verif.Source
open Nom

/-- The Rust values.
Values of the types that `/repo/src/macros.rs:57-552` and `/repo/src/term.rs:1-53` declare, and of the types of the standard library in them. A `&str` is its characters, a unit struct is its name. -/
inductive Val where
  | unit
  | bool (b : Bool)
  | char (c : Char)
  | str (s : Str)
  /-- a unit struct -/
  | token (n : Str)
  | pair (a b : Val)
  | triple (a b c : Val)
  | none
  | some (v : Val)
  | list (vs : List Val)
  | box (v : Val)
  /-- a struct with named fields -/
  | struct (n : Str) (fields : List (Str × Val))
  /-- a struct with one unnamed field -/
  | newtype (n : Str) (v : Val)
  /-- a variant of an enum -/
  | variant (n : Str) (v : Str) (a : Val)

/-- `Option<T>`. Results of `opt!` (`/repo/src/common.rs:6`) and `cond!` (`/repo/src/argument.rs:20`). -/
def Val.ofOption : Option Val → Val
  | Option.none => .none
  | Option.some v => .some v

/-- `Option::is_some`, `/repo/src/argument.rs:20`. -/
def Val.isSome : Val → Bool
  | .some _ => true
  | _ => false

/-- The variables.
The fields parsed before (`/repo/src/macros.rs:268-313`) and the names of `do_parse!` (`/repo/src/common.rs:10-25`), with their values. -/
abbrev Env := List (Str × Val)

/-- The value of a variable; the innermost one of that name. A variable that does not occur in `/repo/src` has the value `()`. -/
def Env.get (env : Env) (x : Str) : Val :=
  match env with
  | [] => .unit
  | (y, v) :: env => if y = x then v else Env.get env x

/-- `char::is_ascii_hexdigit` and so on.
The closures of `/repo/src/common.rs:86-87`, `/repo/src/literal.rs:11,22,32,45`, `/repo/src/whitespace.rs:11`. -/
def Cond.holds : Cond → Char → Bool
  | .alphabetic, c => c.isAlpha
  | .alphanumeric, c => c.isAlphanum
  | .digit, c => c.isDigit
  | .hexdigit, c => c.isDigit || ('a' ≤ c && c ≤ 'f') || ('A' ≤ c && c ≤ 'F')
  | .eq x, c => c == x
  | .ne x, c => c != x
  | .ge x, c => x ≤ c
  | .le x, c => c ≤ x
  | .and a b, c => a.holds c && b.holds c
  | .or a b, c => a.holds c || b.holds c

/-- The closing expressions of `/repo/src/common.rs:10-25`, `/repo/src/term.rs:8-13`, `/repo/src/argument.rs:21`. -/
def Expr.eval (env : Env) : Expr → Val
  | .unit => .unit
  | .bool b => .bool b
  | .var x => env.get x
  | .pair x y => .pair (env.get x) (env.get y)
  | .triple x y z => .triple (env.get x) (env.get y) (env.get z)
  | .box x => .box (env.get x)
  | .unwrapOrNone x =>
    match env.get x with
    | .some v => v
    | _ => .none
  | .token n => .token n

/-- nom's macros, given the parsers of types (`weedle!`, `/repo/src/macros.rs:51-55`). -/
def Mac.run (w : RTy → P Char Val) : Mac → Env → P Char Val
  | .weedle t, _ => w t
  | .sp, _ => w (.path0 c!"sp")
  | .bind x m k, env => seq (m.run w env) fun v =>
    match x with
    | Option.some x => k.run w ((x, v) :: env)
    | Option.none => k.run w env
  | .ret e, env => Nom.ret (e.eval env)
  | .alt m k, env => orElse (m.run w env) (k.run w env)
  | .altEnd, _ => Nom.altEnd
  | .map m x e, env => Nom.map (fun v => e.eval ((x, v) :: env)) (m.run w env)
  | .opt m, env => Nom.map Val.ofOption (Nom.opt (m.run w env))
  | .many0 m, env => Nom.map Val.list (Nom.many0 (m.run w env))
  | .separatedList sep m, env => Nom.map Val.list (Nom.separatedList (sep.run w env) (m.run w env))
  | .separatedNonemptyList sep m, env =>
    Nom.map Val.list (Nom.separatedNonemptyList (sep.run w env) (m.run w env))
  | .terminated m k, env => Nom.terminated (m.run w env) (k.run w env)
  | .condSome x m, env => Nom.map Val.ofOption (Nom.cond (env.get x).isSome (m.run w env))
  | .recognize m, env => Nom.map Val.str (Nom.recognize (m.run w env))
  | .tag t, _ => Nom.map Val.str (Nom.tag t)
  | .identTag t, _ => Nom.map Val.str (Verif.identTag t)
  | .takeUntil t, _ => Nom.map Val.str (Nom.takeUntil t)
  | .takeWhile c, _ => Nom.map Val.str (Nom.takeWhile c.holds)
  | .takeWhile1 c, _ => Nom.map Val.str (Nom.takeWhile1 c.holds)
  | .char c, _ => Nom.map Val.char (Nom.char c)
  | .oneOf cs, _ => Nom.map Val.char (Nom.oneOf cs)

/-- The value of a field with `= marker`, `/repo/src/macros.rs:292-302`: `Default::default()`, here for unit
structs. -/
def marker : RTy → Val
  | .path0 n => .token n
  | _ => .unit

/-- `__ast_struct!`, `/repo/src/macros.rs:268-313`: the fields are parsed one after the other, those before are
variables. -/
def fields (w : RTy → P Char Val) (d : RTy → Val) (n : Str) : List Field → Env → P Char Val
  | [], env => ret (.struct n env)
  | ⟨x, t, .weedle⟩ :: fs, env => seq (w t) fun v => fields w d n fs (env ++ [(x, v)])
  | ⟨x, _, .mac m⟩ :: fs, env => seq (m.run w env) fun v => fields w d n fs (env ++ [(x, v)])
  | ⟨x, t, .marker⟩ :: fs, env => fields w d n fs (env ++ [(x, d t)])

/-- `__ast_enum!`, `/repo/src/macros.rs:491-520`: `alt!` of the variants, in the order in which they are
written. -/
def variants (w : RTy → P Char Val) (n : Str) : List (Str × RTy) → P Char Val
  | [] => altEnd
  | (x, t) :: vs => orElse (Nom.map (Val.variant n x) (w t)) (variants w n vs)

/-- Replace the parameters of a type by its arguments.
What rustc does for `/repo/src/common.rs:31,62,68`; the types are those of `Verif/Source/Syntax.lean`. -/
def RTy.subst (σ : Str → Option RTy) : RTy → RTy
  | .path0 n => (σ n).getD (.path0 n)
  | .path1 n t => .path1 n (t.subst σ)
  | .path2 n t u => .path2 n (t.subst σ) (u.subst σ)
  | .path3 n t u v => .path3 n (t.subst σ) (u.subst σ) (v.subst σ)

/-- The arguments for the parameters. What rustc does for `/repo/src/common.rs:31,62,68`. -/
def assign : List Str → List RTy → Str → Option RTy
  | p :: ps, t :: ts, x => if p = x then Option.some t else assign ps ts x
  | _, _, _ => Option.none

/-- The declaration of a name in `/repo/src`; names are declared once (`Verif/Source/Find.lean`). -/
def find (ds : List Decl) (n : Str) : Option Decl := ds.find? (·.name = n)

/-- The parser that belongs to a declaration, for the given arguments.
The `parser!` of `/repo/src/macros.rs:183-552`, `/repo/src/term.rs:8-13,45-50` and `/repo/src/common.rs:5-26`. -/
def Decl.parser (w : RTy → P Char Val) (args : List RTy) : Decl → P Char Val
  | .struct n ps fs =>
    fields (fun t => w (t.subst (assign ps args))) (fun t => marker (t.subst (assign ps args))) n fs []
  | .newtype n m => Nom.map (Val.newtype n) (m.run w [])
  | .enum n vs => variants w n vs
  | .alias _ t => w t
  | .fn _ ps m => m.run (fun t => w (t.subst (assign ps args))) []

/-- `T::parse`, with at most `n` nested calls. A type that is not declared cannot be parsed.
`/repo/src/lib.rs:92-94`; the bound is a device of the model. -/
def parse (ds : List Decl) : Nat → RTy → P Char Val
  | 0, _ => fun _ => .diverge
  | n + 1, t =>
    match find ds t.name with
    | Option.some d => d.parser (parse ds n) t.args
    | Option.none => fun _ => .diverge

end Verif.Source
