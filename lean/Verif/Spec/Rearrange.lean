import Verif.Spec.Lists

/-!
# Choosing parts of a text
-/

namespace Verif.Spec

/-- The elements at the places `js`, in this order. Places may be left out or come again; places that there are not are passed over. -/
def select {α : Type} (js : List Nat) (xs : List α) : List α := js.filterMap (xs[·]?)

/-- Lists of items with `sep` between them. -/
def joinWith (sep : Str) : List (List Str) → List Str
  | [] => []
  | [p] => p
  | p :: q :: ps => p ++ sep :: joinWith sep (q :: ps)

/-- The definition with the members at the places `js`. -/
def selectMembers (js : List Nat) : Definition → Definition
  | .callbackInterface as i inh ms => .callbackInterface as i inh (select js ms)
  | .interface as i inh ms => .interface as i inh (select js ms)
  | .interfaceMixin as i ms => .interfaceMixin as i (select js ms)
  | .namespace as i ms => .namespace as i (select js ms)
  | .dictionary as i inh ms => .dictionary as i inh (select js ms)
  | .partialInterface as i ms => .partialInterface as i (select js ms)
  | .partialInterfaceMixin as i ms => .partialInterfaceMixin as i (select js ms)
  | .partialDictionary as i ms => .partialDictionary as i (select js ms)
  | .partialNamespace as i ms => .partialNamespace as i (select js ms)
  | d => d

end Verif.Spec
