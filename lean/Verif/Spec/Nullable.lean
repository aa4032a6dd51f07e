import Verif.Spec.MemberKind

/-!
# Nullable types, types of constants, results of operations

Which of them a text is can be told from its first two items and its last one.
-/

namespace Verif.Spec

/-- Does the type have a `?`? -/
def nullableNonAny : NonAnyType → Bool
  | .promise _ => false
  | .integer _ q | .floatingPoint _ q | .builtin _ q | .sequence _ q | .frozenArray _ q | .record _ _ q | .identifier _ q => q

def nullable : Ty → Bool
  | .single .any => false
  | .single (.nonAny t) => nullableNonAny t
  | .union _ q => q

def nullableConst : ConstType → Bool
  | .integer _ q | .floatingPoint _ q | .boolean q | .byte q | .octet q | .identifier _ q => q

/-- The last item is `?`. -/
def endsNullable (ls : List Str) : Bool := ls.getLast? = some c!"?"

/-- The alternatives of `ConstType`. -/
inductive ConstKind where
  | integer | floatingPoint | boolean | byte | octet | identifier
  deriving DecidableEq

def constKind : ConstType → ConstKind
  | .integer .. => .integer
  | .floatingPoint .. => .floatingPoint
  | .boolean _ => .boolean
  | .byte _ => .byte
  | .octet _ => .octet
  | .identifier .. => .identifier

/-- The kind of the type of a constant, from its first two items. `any`, `sequence`, `DOMString` and so on are names here. -/
def classifyConst : List Str → ConstKind
  | [] => .identifier
  | w :: ls =>
    let next := ls.head?
    if w = c!"long" ∨ w = c!"short" ∨ w = c!"unsigned" ∧ (next = some c!"long" ∨ next = some c!"short") then .integer
    else if w = c!"float" ∨ w = c!"double" ∨ w = c!"unrestricted" ∧ (next = some c!"float" ∨ next = some c!"double") then
      .floatingPoint
    else if w = c!"boolean" then .boolean
    else if w = c!"byte" then .byte
    else if w = c!"octet" then .octet
    else .identifier

end Verif.Spec
