import Verif.Spec.Kind
import Verif.Spec.Types

/-!
# Kinds of members, types and extended attributes

How to tell them from the lexical items, without parsing.
-/

namespace Verif.Spec

/-- The variants of `InterfaceMember`; those of `MixinMember` and `NamespaceMember` are among them. -/
inductive MemberKind where
  | const | attribute | constructor | operation | iterable | asyncIterable | maplike | setlike | stringifier
  deriving DecidableEq

def interfaceMemberKind : InterfaceMember → MemberKind
  | .const _ => .const
  | .attribute _ => .attribute
  | .constructor _ => .constructor
  | .operation _ => .operation
  | .iterable _ => .iterable
  | .asyncIterable _ => .asyncIterable
  | .maplike _ => .maplike
  | .setlike _ => .setlike
  | .stringifier _ => .stringifier

def mixinMemberKind : MixinMember → MemberKind
  | .const _ => .const
  | .operation _ => .operation
  | .attribute _ => .attribute
  | .stringifier _ => .stringifier

def namespaceMemberKind : NamespaceMember → MemberKind
  | .const _ => .const
  | .operation _ => .operation
  | .attribute _ => .attribute

/-- The items end with `)` `;`. -/
def endsWithParen (ls : List Str) : Bool := [c!")", c!";"].isSuffixOf ls

/-- The kind of a member of an interface, from the items after its attributes: what ends with `)` `;` is an operation unless it
begins with `constructor` `(` or `async` `iterable` `<`; everything else is told by its first or second word. -/
def classifyInterface (ls : List Str) : MemberKind :=
  if endsWithParen ls then
    if [c!"constructor", c!"("].isPrefixOf ls then .constructor
    else if [c!"async", c!"iterable", c!"<"].isPrefixOf ls then .asyncIterable
    else .operation
  else if [c!"const"].isPrefixOf ls then .const
  else if [c!"iterable"].isPrefixOf ls then .iterable
  else if [c!"async"].isPrefixOf ls then .asyncIterable
  else if [c!"maplike"].isPrefixOf ls || [c!"readonly", c!"maplike"].isPrefixOf ls then .maplike
  else if [c!"setlike"].isPrefixOf ls || [c!"readonly", c!"setlike"].isPrefixOf ls then .setlike
  else if ls = [c!"stringifier", c!";"] then .stringifier
  else .attribute

/-- The kind of a member of a mixin or a namespace. -/
def classifyMixin (ls : List Str) : MemberKind :=
  if endsWithParen ls then .operation
  else if [c!"const"].isPrefixOf ls then .const
  else if ls = [c!"stringifier", c!";"] then .stringifier
  else .attribute

/-- The kinds of the members of a definition, for those definitions that have members of several kinds. -/
def memberKinds : Definition → Option (List MemberKind)
  | .callbackInterface _ _ _ ms | .interface _ _ _ ms | .partialInterface _ _ ms => some (ms.map interfaceMemberKind)
  | .interfaceMixin _ _ ms | .partialInterfaceMixin _ _ ms => some (ms.map mixinMemberKind)
  | .namespace _ _ ms | .partialNamespace _ _ ms => some (ms.map namespaceMemberKind)
  | _ => none

/-- How to tell the kind of a member, by the kind of the definition. -/
def classifyMember (k : Kind) (ls : List Str) : MemberKind :=
  if k ∈ [.callbackInterface, .interface, .partialInterface] then classifyInterface (afterAttributes ls)
  else classifyMixin (afterAttributes ls)

/-- The alternatives of `Type`, `SingleType` and `NonAnyType`. -/
inductive TypeKind where
  | union | any | promise | integer | floatingPoint | builtin | sequence | frozenArray | record | identifier
  deriving DecidableEq

def nonAnyKind : NonAnyType → TypeKind
  | .promise _ => .promise
  | .integer .. => .integer
  | .floatingPoint .. => .floatingPoint
  | .builtin .. => .builtin
  | .sequence .. => .sequence
  | .frozenArray .. => .frozenArray
  | .record .. => .record
  | .identifier .. => .identifier

def typeKind : Ty → TypeKind
  | .union .. => .union
  | .single .any => .any
  | .single (.nonAny t) => nonAnyKind t

/-- The words that name a built-in type, other than the types of numbers. -/
def builtinWords : List Str := typeWords.filter fun w => !(w ∈ [c!"long", c!"short", c!"float", c!"double"])

/-- The kind of a type, from its first two items. -/
def classifyType : List Str → TypeKind
  | [] => .identifier
  | w :: ls =>
    let next := ls.head?
    if w = c!"(" then .union
    else if w = c!"any" then .any
    else if w = c!"Promise" ∧ next = some c!"<" then .promise
    else if w = c!"sequence" ∧ next = some c!"<" then .sequence
    else if w = c!"FrozenArray" ∧ next = some c!"<" then .frozenArray
    else if w = c!"record" ∧ next = some c!"<" then .record
    else if w = c!"long" ∨ w = c!"short" ∨ w = c!"unsigned" ∧ (next = some c!"long" ∨ next = some c!"short") then .integer
    else if w = c!"float" ∨ w = c!"double" ∨ w = c!"unrestricted" ∧ (next = some c!"float" ∨ next = some c!"double") then
      .floatingPoint
    else if w ∈ builtinWords then .builtin
    else .identifier

/-- The kind of an extended attribute, from what follows its name. -/
def classifyAttribute (ls : List Str) : AttrKind :=
  match ls.tail with
  | [] => .noArgs
  | w :: ls =>
    if w = c!"(" then .argList
    else match ls with
      | [] => .noArgs
      | w :: ls => if w = c!"(" then .identList else if w = c!"*" then .wildcard else if ls = [] then .ident else .namedArgList

/-- The kinds of values, with the three kinds of integers told apart. -/
inductive ValueKind where
  | boolean | emptyArray | emptyDictionary | float | dec | hex | oct | null | string
  deriving DecidableEq

def integerLitKind : IntegerLit → ValueKind
  | .dec _ => .dec
  | .hex _ => .hex
  | .oct _ => .oct

def defaultValueKind : DefaultValue → ValueKind
  | .boolean _ => .boolean
  | .emptyArray => .emptyArray
  | .emptyDictionary => .emptyDictionary
  | .float _ => .float
  | .integer i => integerLitKind i
  | .null => .null
  | .string _ => .string

def constValueKind : ConstValue → ValueKind
  | .boolean _ => .boolean
  | .float _ => .float
  | .integer i => integerLitKind i
  | .null => .null

/-- The kind of a number without its sign. -/
def classifyDigits (w : Str) : ValueKind :=
  if w.take 2 = c!"0x" ∨ w.take 2 = c!"0X" then .hex
  else if '.' ∈ w ∨ 'e' ∈ w ∨ 'E' ∈ w then .float
  else if w.head? = some '0' then .oct
  else .dec

/-- The kind of a value, from its first item. -/
def classifyValue (ls : List Str) : ValueKind :=
  match ls with
  | [] => .null
  | w :: _ =>
    if w = c!"true" ∨ w = c!"false" then .boolean
    else if w = c!"null" then .null
    else if w = c!"[" then .emptyArray
    else if w = c!"{" then .emptyDictionary
    else if w = c!"NaN" ∨ w = c!"Infinity" ∨ w = c!"-Infinity" then .float
    else if w.head? = some '"' then .string
    else classifyDigits (if w.head? = some '-' then w.tail else w)

/-- An argument is variadic if `...` stands before its last item. -/
def classifyVariadic (ls : List Str) : Bool := ls.dropLast.getLast? = some c!"..."

def isVariadic : Argument → Bool
  | .single .. => false
  | .variadic .. => true

end Verif.Spec
