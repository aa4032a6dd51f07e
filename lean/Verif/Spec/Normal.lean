import Verif.Spec.Lexing

/-!
# What a text loses when it is parsed
-/

namespace Verif.Spec

/-- The item without the underscore in front. -/
def unescaped : Str → Str
  | '_' :: i => i
  | w => w

/-- The items without underscores in front, and without commas before a closing brace. -/
def essential : List Str → List Str
  | [] => []
  | w :: ls =>
    if w = c!"," ∧ (essential ls).head? = some c!"}" then essential ls else unescaped w :: essential ls

/-- The number of members of a definition. -/
def memberCount : Definition → Nat
  | .callbackInterface _ _ _ ms => ms.length
  | .interface _ _ _ ms => ms.length
  | .interfaceMixin _ _ ms => ms.length
  | .namespace _ _ ms => ms.length
  | .dictionary _ _ _ ms => ms.length
  | .partialInterface _ _ ms => ms.length
  | .partialInterfaceMixin _ _ ms => ms.length
  | .partialDictionary _ _ ms => ms.length
  | .partialNamespace _ _ ms => ms.length
  | _ => 0

end Verif.Spec
