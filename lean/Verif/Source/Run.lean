import Verif.Source.Meaning
import Verif.Source.Rust

/-!
# The meaning of Rust after the expansion of macros

`match`, `let`, `Ok`, `if`, function calls and trait methods, as far as they occur in `Code`; nom's macros are those of
`Verif/Model/Nom.lean`. A `&str` is a value `.str s`.
-/

namespace Verif.Source
open Nom

/-- The variable `i`, when it is a `&str`. The argument `$i` of the macros in `/repo/src/macros.rs:1-55`. -/
def Env.input (env : Env) (i : Str) : Str :=
  match env.get i with
  | .str s => s
  | _ => []

/-- `/repo/src/macros.rs:1-41`. -/
def Prim.run : Prim → P Char Val
  | .tag t => Nom.map Val.str (Nom.tag t)
  | .takeUntil t => Nom.map Val.str (Nom.takeUntil t)
  | .takeWhile c => Nom.map Val.str (Nom.takeWhile c.holds)
  | .takeWhile1 c => Nom.map Val.str (Nom.takeWhile1 c.holds)
  | .char c => Nom.map Val.char (Nom.char c)
  | .oneOf cs => Nom.map Val.char (Nom.oneOf cs)

/-- `nom::character::is_alphanumeric` is ASCII-only. A byte literal `b'x'` is the code of `x`.
`/repo/src/term.rs:27`. -/
def ByteCond.holds (b : UInt8) : ByteCond → Bool
  | .alphanumeric =>
    (0x30 ≤ b.toNat && b.toNat ≤ 0x39) || (0x41 ≤ b.toNat && b.toNat ≤ 0x5A) || (0x61 ≤ b.toNat && b.toNat ≤ 0x7A)
  | .eq x => b.toNat == x.toNat
  | .or p q => p.holds b || q.holds b

/-- `s.as_bytes().first()`. `/repo/src/term.rs:26`. -/
def firstByte : Str → Option UInt8
  | [] => none
  | c :: _ => (String.utf8EncodeChar c).head?

/-- What an expression may refer to. The implementations that `/repo/src/macros.rs:57-552` makes. -/
structure Ctx where
  /-- `T::parse` -/
  parse : RTy → P Char Val
  /-- functions -/
  call : Str → P Char Val
  /-- the implementations of `From<T>` for `Self` -/
  convert : RTy → Val → Val
  /-- `Default::default()`, of the type of the field `x` of `Self` -/
  default : Str → Val
  /-- the name of `Self` -/
  self : Str

/-- The values in `Ok((i, v))`: `/repo/src/macros.rs:200,268-274`. -/
def Out.eval (X : Ctx) (env : Env) : Out → Val
  | .expr e => e.eval env
  | .self xs => .struct X.self (xs.map fun x => (x, env.get x))
  | .newtype n x => .newtype n (env.get x)

/-- The expressions that `/repo/src/macros.rs:1-552` and `/repo/src/term.rs:18-36` expand to, in the environment `env`. -/
def Code.eval (X : Ctx) : Code → Env → Res Char Val
  | .call t i, env => X.parse t (env.input i)
  | .fn f i, env => X.call f (env.input i)
  | .prim p i, env => p.run (env.input i)
  | .ok i v, env => .ok (env.input i) (v.eval X env)
  | .bind c i x k, env =>
    match c.eval X env with
    | .err e => .err e
    | .ok r v => k.eval X ((x, v) :: (i, .str r) :: env)
    | .diverge => .diverge
  | .letDefault x k, env => k.eval X ((x, X.default x) :: env)
  | .unless i o j b k, env =>
    match firstByte (env.input j) with
    | Option.some c => if b.holds c then .err (.error (env.input k) .tag) else .ok (env.input i) (env.get o)
    | Option.none => .ok (env.input i) (env.get o)
  | .at i c, env => c.eval X ((c!"$i", .str (env.input i)) :: env)
  | .alt m k, env =>
    orElse (fun s => m.eval X ((c!"$i", .str s) :: env)) (fun s => k.eval X ((c!"$i", .str s) :: env)) (env.input c!"$i")
  | .altEnd, env => Nom.altEnd (env.input c!"$i")
  | .into t m, env => Nom.map (X.convert t) (fun s => m.eval X ((c!"$i", .str s) :: env)) (env.input c!"$i")
  | .map m x e, env =>
    Nom.map (fun v => e.eval ((x, v) :: env)) (fun s => m.eval X ((c!"$i", .str s) :: env)) (env.input c!"$i")
  | .opt m, env => Nom.map Val.ofOption (Nom.opt fun s => m.eval X ((c!"$i", .str s) :: env)) (env.input c!"$i")
  | .many0 m, env => Nom.map Val.list (Nom.many0 fun s => m.eval X ((c!"$i", .str s) :: env)) (env.input c!"$i")
  | .separatedList sep m, env =>
    Nom.map Val.list (Nom.separatedList (fun s => sep.eval X ((c!"$i", .str s) :: env))
      (fun s => m.eval X ((c!"$i", .str s) :: env))) (env.input c!"$i")
  | .separatedNonemptyList sep m, env =>
    Nom.map Val.list (Nom.separatedNonemptyList (fun s => sep.eval X ((c!"$i", .str s) :: env))
      (fun s => m.eval X ((c!"$i", .str s) :: env))) (env.input c!"$i")
  | .terminated m k, env =>
    Nom.terminated (fun s => m.eval X ((c!"$i", .str s) :: env)) (fun s => k.eval X ((c!"$i", .str s) :: env))
      (env.input c!"$i")
  | .condSome x m, env =>
    Nom.map Val.ofOption (Nom.cond (env.get x).isSome fun s => m.eval X ((c!"$i", .str s) :: env)) (env.input c!"$i")
  | .recognize m, env => Nom.map Val.str (Nom.recognize fun s => m.eval X ((c!"$i", .str s) :: env)) (env.input c!"$i")

/-- The type or function that an item gives a parser.
`/repo/src/macros.rs:183-552`, `/repo/src/attribute.rs:6,9` and the like, `/repo/src/whitespace.rs:3-17`. -/
def Item.defines : Item → Option Str
  | .parse n _ _ _ | .alias n _ | .fn n _ _ => Option.some n
  | _ => Option.none

/-- The implementation of `Parse` for the type `n`, or the alias `n`, or the function `n`.
What rustc finds for `<T as Parse>::parse`, `/repo/src/macros.rs:51-55`. -/
def implOf (is : List Item) (n : Str) : Option Item := is.find? fun it => it.defines = Option.some n

/-- The types of the fields of the struct `n`. `/repo/src/macros.rs:221-235`. -/
def fieldsOf (n : Str) : List Item → List (Str × RTy)
  | [] => []
  | .struct m _ fs :: is => if m = n then fs else fieldsOf n is
  | _ :: is => fieldsOf n is

/-- The variant that `From<t> for n` makes. `/repo/src/macros.rs:460-478`. -/
def fromOf (t : RTy) (n : Str) : List Item → Option Str
  | [] => Option.none
  | .from u m v :: is => if u = t ∧ m = n then Option.some v else fromOf t n is
  | _ :: is => fromOf t n is

/-- `T::parse`, with at most `n` nested calls. `/repo/src/lib.rs:92-94`; the bound is a device of the model. -/
def run (is : List Item) : Nat → RTy → P Char Val
  | 0, _ => fun _ => .diverge
  | n + 1, t =>
    match implOf is t.name with
    | Option.some (.parse m ps i c) => fun s => c.eval
        { parse := fun u => run is n (u.subst (assign ps t.args))
          call := fun f => run is n (.path0 f)
          convert := fun u v =>
            match fromOf u m is with
            | Option.some x => .variant m x v
            | Option.none => .unit
          default := fun x =>
            match lookup x (fieldsOf m is) with
            | Option.some u => marker (u.subst (assign ps t.args))
            | Option.none => .unit
          self := m } [(i, .str s)]
    | Option.some (.fn m i c) => fun s => c.eval
        { parse := run is n
          call := fun f => run is n (.path0 f)
          convert := fun _ v => v
          default := fun _ => .unit
          self := m } [(i, .str s)]
    | Option.some (.alias _ u) => run is n u
    | _ => fun _ => .diverge

/-- The body of `weedle::parse`; what it does when the assertion fails is `none`. `/repo/src/lib.rs:83-90`. -/
def Entry.eval (X : RTy → P Char Val) (e : Entry) (s : Str) : Option (Res Char Val) :=
  let env : Env := [(e.param, .str s)]
  match X e.type (env.input e.arg) with
  | .ok r v =>
    let env : Env := (e.rest, .str r) :: (e.val, v) :: env
    if (env.input e.empty).isEmpty then Option.some (.ok [] (env.get e.ret)) else Option.none
  | x => Option.some x

end Verif.Source
