import Verif.Spec.Pieces

/-!
# Cutting a list at its commas
-/

namespace Verif.Spec
open Nom

/-- Cuts a list of items at each `,` that is outside of all brackets. `n` is the number of brackets that are open, `a` are the items since
the last cut. -/
def split (n : Nat) (a : List Str) : List Str → List (List Str)
  | [] => [a]
  | w :: ls =>
    if w ∈ openings then split (n + 1) (a ++ [w]) ls
    else if w ∈ closings then split (n - 1) (a ++ [w]) ls
    else if w = c!"," ∧ n = 0 then a :: split 0 [] ls
    else split n (a ++ [w]) ls

/-- There are no parts if there are no items. -/
def parts (ls : List Str) : List (List Str) := if ls = [] then [] else split 0 [] ls

/-- The items without a comma that comes last. -/
def withoutLast (ls : List Str) : List Str := if ls.getLast? = some c!"," then ls.dropLast else ls

/-- Cuts a list of items at each `or` that is outside of all brackets and does not begin a type: `begun` tells whether there has been an item
since the last cut, apart from attributes in square brackets. -/
def alternativesFrom (n : Nat) (a : List Str) (begun : Bool) : List Str → List (List Str)
  | [] => [a]
  | w :: ls =>
    if w ∈ openings then alternativesFrom (n + 1) (a ++ [w]) (begun || (n == 0 && w != c!"[")) ls
    else if w ∈ closings then alternativesFrom (n - 1) (a ++ [w]) begun ls
    else if n ≠ 0 then alternativesFrom n (a ++ [w]) begun ls
    else if w = c!"or" ∧ begun then a :: alternativesFrom 0 [] false ls
    else alternativesFrom 0 (a ++ [w]) true ls

def alternatives (ls : List Str) : List (List Str) := if ls = [] then [] else alternativesFrom 0 [] false ls

end Verif.Spec
