import Verif.Model.Grammar

/-!
# The recursive knot and `weedle::parse`
-/

namespace Verif
open Nom

/-- The leaf parsers on characters (`Verif/Model/Lex.lean`; `/repo/src/term.rs:8-13,45-50`, `/repo/src/common.rs:80-92`,
`/repo/src/literal.rs:7-35,42-49,96-138`). -/
def charLeaf : ∀ α, Leaf α → P Char α
  | _, .punct p => punctP p
  | _, .kw k => kwP k
  | _, .ident => identP
  | _, .dec => decP
  | _, .hex => hexP
  | _, .oct => octP
  | _, .float => floatP
  | _, .string => stringP

section
variable {σ : Type} [DecidableEq σ]

/-- The recursive parsers (`/repo/src/types.rs:11-18,21-51,135-138`, `/repo/src/argument.rs:10-31`), with at most `n` nested
recursive calls. The bound is a device of the model. -/
def ntRun (leaf : ∀ α, Leaf α → P σ α) : Nat → ∀ α, NT α → P σ α
  | 0, _, _ => fun _ => .diverge
  | n + 1, _, N => (G.body N).run leaf (ntRun leaf n)

/-- The recursive parsers, `/repo/src/types.rs:11-18,21-51,135-138`, `/repo/src/argument.rs:10-31`. The depth granted is the length of the input plus one;
property C01 shows that this, or any larger depth, is never exhausted, so that this
is the unbounded recursion of the Rust code. -/
def ntLim (leaf : ∀ α, Leaf α → P σ α) (α : Type) (N : NT α) : P σ α := fun i =>
  ntRun leaf (i.length + 1) α N i

/-- The parser denoted by a grammar expression: `Parse::parse`, `/repo/src/lib.rs:92-94`. -/
def G.parseWith (leaf : ∀ α, Leaf α → P σ α) {α : Type} (g : G α) : P σ α :=
  g.run leaf (ntLim leaf)

end

/-- `T::parse(input)` (`/repo/src/lib.rs:92-94`), for the type `T` described by the
grammar expression `g`. -/
def G.parse {α : Type} (g : G α) : P Char α := g.parseWith charLeaf

/-- What a call of `weedle::parse` (`/repo/src/lib.rs:83-90`) can do; `panic` is the failure of its assertion. -/
inductive Outcome where
  | ok (ds : List Definition)
  | err (e : Err Char)
  | panic
  | diverge

/-- `weedle::parse`, `/repo/src/lib.rs:83-90`. -/
def weedleParse (raw : Str) : Outcome :=
  match G.definitions.parse raw with
  | .ok remaining parsed => if remaining.isEmpty then .ok parsed else .panic
  | .err e => .err e
  | .diverge => .diverge

end Verif
