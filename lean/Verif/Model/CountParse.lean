import Verif.Model.Count

/-!
# The whole parser, counting the characters it looks at

`G.run`, `ntRun` and `weedle::parse` (`Verif/Model/Grammar.lean`, `Verif/Model/Parse.lean`) once more, with the counter of
`Verif/Model/Count.lean`. Property C67 shows that the results are the same.
-/

namespace Verif.Count
open Nom

variable {α β : Type}

/-- The loop of `separated_list!` (`/repo/src/common.rs:63,70`) after the first element, with an iteration bound as in
`Nom.sepLoop`. -/
def sepLoop (sep : C β) (p : C α) : Nat → C (List α)
  | 0, _ => (0, .diverge)
  | n + 1, i =>
    match (sep i).2 with
    | .err (.error _ _) => ((sep i).1, .ok i [])
    | .err e => ((sep i).1, .err e)
    | .diverge => ((sep i).1, .diverge)
    | .ok i1 _ =>
      if i1 = i then ((sep i).1, .err (.error i1 .separatedList)) else
      match (p i1).2 with
      | .err (.error _ _) => ((sep i).1 + (p i1).1, .ok i [])
      | .err e => ((sep i).1 + (p i1).1, .err e)
      | .diverge => ((sep i).1 + (p i1).1, .diverge)
      | .ok i2 a =>
        if i2 = i then ((sep i).1 + (p i1).1, .err (.error i2 .separatedList))
        else ((sep i).1 + (p i1).1 + (sepLoop sep p n i2).1, consRes a (sepLoop sep p n i2).2)

/-- `separated_list!(sep, p)`, `/repo/src/common.rs:63`. -/
def separatedList (sep : C β) (p : C α) : C (List α) := fun i =>
  match (p i).2 with
  | .err (.error _ _) => ((p i).1, .ok i [])
  | .err e => ((p i).1, .err e)
  | .diverge => ((p i).1, .diverge)
  | .ok i1 a =>
    if i1 = i then ((p i).1, .err (.error i1 .separatedList))
    else ((p i).1 + (sepLoop sep p (i1.length + 1) i1).1, consRes a (sepLoop sep p (i1.length + 1) i1).2)

/-- `separated_nonempty_list!(sep, p)`, `/repo/src/common.rs:70`. -/
def separatedNonemptyList (sep : C β) (p : C α) : C (List α) := fun i =>
  match (p i).2 with
  | .err e => ((p i).1, .err e)
  | .diverge => ((p i).1, .diverge)
  | .ok i1 a =>
    if i1 = i then ((p i).1, .err (.error i1 .separatedList))
    else ((p i).1 + (sepLoop sep p (i1.length + 1) i1).1, consRes a (sepLoop sep p (i1.length + 1) i1).2)

/-- The parser described by a grammar expression, given the recursive parsers (`G.run`; the macros of
`/repo/src/macros.rs:43-537`). -/
def run (nt : ∀ α, NT α → C α) : {α : Type} → G α → C α
  | _, .ret a => ret a
  | _, .leaf l => leaf _ l
  | _, .bind g f => seq (run nt g) fun a => run nt (f a)
  | _, .orElse g h => orElse (run nt g) (run nt h)
  | _, .altEnd => altEnd
  | _, .opt g => opt (run nt g)
  | _, .many0 g => many0 (run nt g)
  | _, .separatedList sep g => separatedList (run nt sep) (run nt g)
  | _, .separatedNonemptyList sep g => separatedNonemptyList (run nt sep) (run nt g)
  | _, .call N => nt _ N

/-- The recursive parsers (`/repo/src/types.rs:11-18,21-51,135-138`, `/repo/src/argument.rs:10-31`), with at most `n` nested
recursive calls, as in `ntRun`. -/
def knot : Nat → ∀ α, NT α → C α
  | 0, _, _ => fun _ => (0, .diverge)
  | n + 1, _, N => run (knot n) (G.body N)

/-- `T::parse(input)` (`/repo/src/lib.rs:92-94`), with the number of looks. -/
def parse (g : G α) : C α := fun i => run (knot (i.length + 1)) g i

end Verif.Count
