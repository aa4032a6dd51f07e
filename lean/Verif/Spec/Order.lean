import Verif.Spec.Kind

/-! # The order of texts -/

namespace Verif.Spec

/-- `a` comes before `b` as in a dictionary, where the letters are ordered by their code points: `b` goes on where `a` ends, or at the first
difference the letter of `a` has the lower code point. -/
def Before (a b : Str) : Prop :=
  (∃ t, t ≠ [] ∧ b = a ++ t) ∨ ∃ p c d x y, a = p ++ c :: x ∧ b = p ++ d :: y ∧ c.toNat < d.toNat

/-- The kinds of definitions in the order in which `Definition` declares them, `/repo/src/lib.rs:103-137`. -/
def rank : Kind → Nat
  | .callback => 0
  | .callbackInterface => 1
  | .interface => 2
  | .interfaceMixin => 3
  | .namespace => 4
  | .dictionary => 5
  | .partialInterface => 6
  | .partialInterfaceMixin => 7
  | .partialDictionary => 8
  | .partialNamespace => 9
  | .enum => 10
  | .typedef => 11
  | .includesStatement => 12
  | .implements => 13

/-- The extended attributes of a definition and the name that it begins with, which a `typedef` does not. -/
def labelled : Definition → Option (List ExtAttr) × Option Str
  | .callback as i .. | .callbackInterface as i .. | .interface as i .. | .interfaceMixin as i .. | .namespace as i .. | .dictionary as i ..
  | .partialInterface as i .. | .partialInterfaceMixin as i .. | .partialDictionary as i .. | .partialNamespace as i .. | .enum as i ..
  | .includesStatement as i .. | .implements as i .. => (as, some i)
  | .typedef as .. => (as, none)

end Verif.Spec
