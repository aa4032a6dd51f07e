import Verif.Model.Ast

/-!
# Brackets, and the kinds of definitions
-/

namespace Verif.Spec

/-- The pairs of brackets. -/
def pairs : List (Str × Str) := [(c!"(", c!")"), (c!"[", c!"]"), (c!"{", c!"}"), (c!"<", c!">")]

/-- Every bracket among the items is matched. -/
inductive Balanced : List Str → Prop where
  | nil : Balanced []
  | item {w : Str} {ls : List Str} (hw : ∀ p ∈ pairs, w ≠ p.1 ∧ w ≠ p.2) (h : Balanced ls) : Balanced (w :: ls)
  | group {o c : Str} {ls ls' : List Str} (hp : (o, c) ∈ pairs) (h : Balanced ls) (h' : Balanced ls') :
      Balanced (o :: ls ++ c :: ls')

/-- What follows the `]` that belongs to a `[` on the left; `n` is the number of further brackets that are open. -/
def closing (n : Nat) : List Str → List Str
  | [] => []
  | w :: ls =>
    if w = c!"[" then closing (n + 1) ls
    else if w = c!"]" then (match n with | 0 => ls | n + 1 => closing n ls)
    else closing n ls

/-- The items after a leading list in brackets, if there is one. -/
def afterAttributes (ls : List Str) : List Str :=
  match ls with
  | [] => []
  | w :: ls => if w = c!"[" then closing 0 ls else w :: ls

/-- The variants of `Definition`. -/
inductive Kind where
  | callback | callbackInterface | interface | interfaceMixin | namespace | dictionary | partialInterface
  | partialInterfaceMixin | partialDictionary | partialNamespace | enum | typedef | includesStatement | implements
  deriving DecidableEq

def kind : Definition → Kind
  | .callback .. => .callback
  | .callbackInterface .. => .callbackInterface
  | .interface .. => .interface
  | .interfaceMixin .. => .interfaceMixin
  | .namespace .. => .namespace
  | .dictionary .. => .dictionary
  | .partialInterface .. => .partialInterface
  | .partialInterfaceMixin .. => .partialInterfaceMixin
  | .partialDictionary .. => .partialDictionary
  | .partialNamespace .. => .partialNamespace
  | .enum .. => .enum
  | .typedef .. => .typedef
  | .includesStatement .. => .includesStatement
  | .implements .. => .implements

/-- What follows the name of a callback, interface, dictionary, namespace or enum. -/
def marks : List Str := [c!"=", c!"{", c!":"]

/-- The kind of a definition from its first items. A keyword in front of a mark is a name. -/
def classify : List Str → Option Kind
  | a :: b :: c :: ls =>
    if a = c!"typedef" then some .typedef
    else if b = c!"includes" ∧ c ∉ marks then some .includesStatement
    else if b = c!"implements" ∧ c ∉ marks then some .implements
    else if a = c!"callback" then if b = c!"interface" ∧ c ∉ marks then some .callbackInterface else some .callback
    else if a = c!"interface" then if b = c!"mixin" ∧ c ∉ marks then some .interfaceMixin else some .interface
    else if a = c!"namespace" then some .namespace
    else if a = c!"dictionary" then some .dictionary
    else if a = c!"enum" then some .enum
    else if a = c!"partial" then
      if b = c!"interface" then
        if c = c!"mixin" ∧ ls.head? ≠ some c!"{" then some .partialInterfaceMixin else some .partialInterface
      else if b = c!"dictionary" then some .partialDictionary
      else if b = c!"namespace" then some .partialNamespace
      else none
    else none
  | _ => none

end Verif.Spec
