import Verif.Spec.Kind
import Verif.Spec.Grammar
import Verif.Model.Parse

/-!
# Cutting a text at its semicolons
-/

namespace Verif.Spec
open Nom

def openings : List Str := [c!"(", c!"[", c!"{", c!"<"]
def closings : List Str := [c!")", c!"]", c!"}", c!">"]

/-- Cuts a list of items behind each `;` that is outside of all brackets. `n` is the number of brackets that are open, `a` are the items
since the last cut. What is behind the last cut is a piece as well, unless it is empty. -/
def cut (n : Nat) (a : List Str) : List Str → List (List Str)
  | [] => if a = [] then [] else [a]
  | w :: ls =>
    if w ∈ openings then cut (n + 1) (a ++ [w]) ls
    else if w ∈ closings then cut (n - 1) (a ++ [w]) ls
    else if w = c!";" ∧ n = 0 then (a ++ [w]) :: cut 0 [] ls
    else cut n (a ++ [w]) ls

def pieces (ls : List Str) : List (List Str) := cut 0 [] ls

/-- Equally many on both sides, and related one by one. -/
inductive OneByOne {α β : Type} (R : α → β → Prop) : List α → List β → Prop where
  | nil : OneByOne R [] []
  | cons {a : α} {b : β} {as : List α} {bs : List β} (h : R a b) (hs : OneByOne R as bs) : OneByOne R (a :: as) (b :: bs)

/-- The definition without its members. -/
def withoutMembers : Definition → Option Definition
  | .callbackInterface as i inh _ => some (.callbackInterface as i inh [])
  | .interface as i inh _ => some (.interface as i inh [])
  | .interfaceMixin as i _ => some (.interfaceMixin as i [])
  | .namespace as i _ => some (.namespace as i [])
  | .dictionary as i inh _ => some (.dictionary as i inh [])
  | .partialInterface as i _ => some (.partialInterface as i [])
  | .partialInterfaceMixin as i _ => some (.partialInterfaceMixin as i [])
  | .partialDictionary as i _ => some (.partialDictionary as i [])
  | .partialNamespace as i _ => some (.partialNamespace as i [])
  | _ => none

/-- Each piece, written with spaces between the items, is accepted by the parser of members, one for each member of the definition. -/
def MembersAre (ps : List (List Str)) : Definition → Prop
  | .callbackInterface _ _ _ ms => OneByOne (fun p m => G.interfaceMember.parse (spaced p) = .ok [] m) ps ms
  | .interface _ _ _ ms => OneByOne (fun p m => G.interfaceMember.parse (spaced p) = .ok [] m) ps ms
  | .interfaceMixin _ _ ms => OneByOne (fun p m => G.mixinMember.parse (spaced p) = .ok [] m) ps ms
  | .namespace _ _ ms => OneByOne (fun p m => G.namespaceMember.parse (spaced p) = .ok [] m) ps ms
  | .dictionary _ _ _ ms => OneByOne (fun p m => G.dictionaryMember.parse (spaced p) = .ok [] m) ps ms
  | .partialInterface _ _ ms => OneByOne (fun p m => G.interfaceMember.parse (spaced p) = .ok [] m) ps ms
  | .partialInterfaceMixin _ _ ms => OneByOne (fun p m => G.mixinMember.parse (spaced p) = .ok [] m) ps ms
  | .partialDictionary _ _ ms => OneByOne (fun p m => G.dictionaryMember.parse (spaced p) = .ok [] m) ps ms
  | .partialNamespace _ _ ms => OneByOne (fun p m => G.namespaceMember.parse (spaced p) = .ok [] m) ps ms
  | _ => False

end Verif.Spec
