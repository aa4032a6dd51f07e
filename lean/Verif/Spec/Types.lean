import Verif.Spec.Grammar
import Verif.Spec.Kind

/-!
# Parts of documents

What may follow a part that is parsed by itself, and the spellings of single alternatives.
-/

namespace Verif.Spec

/-- The text is at its end, or goes on with one of `;` `,` `)` `]` `}` `>`. -/
def Ended (r : Str) : Prop := r = [] ∨ ∃ c e, r = c :: e ∧ c ∈ [';', ',', ')', ']', '}', '>']

/-- The spellings of `a`, for those `a` with the property `p`. -/
def only {α : Type} (p : α → Prop) (L : α → Lang) (a : α) : Lang := fun ls => p a ∧ L a ls

/-- An operation by itself, where constructors are not an alternative. -/
def operationAlone (m : OperationInterfaceMember) : Lang :=
  attributes m.attributes ⨾ modified m.modifier (specialised m.special
    (returnNamed m.returnType m.identifier ⨾ argumentList m.args ⨾ tok c!";"))

/-- An `includes` statement by itself, where typedefs are not an alternative. -/
def includesAlone : Definition → Lang
  | .includesStatement as l r => attributes as ⨾ name l ⨾ tok c!"includes" ⨾ name r ⨾ tok c!";"
  | _ => fun _ => False

/-- An `implements` statement by itself, where typedefs are not an alternative. -/
def implementsAlone : Definition → Lang
  | .implements as l r => attributes as ⨾ name l ⨾ tok c!"implements" ⨾ name r ⨾ tok c!";"
  | _ => fun _ => False

/-- `= value`. -/
def defaultPart (v : DefaultValue) : Lang := tok c!"=" ⨾ defaultValue v

/-- `: Base` -/
def inheritancePart (i : Str) : Lang := tok c!":" ⨾ name i

/-- `[a, b, ...]` -/
def attributeList (as : List ExtAttr) : Lang := brackets (sepBy comma (as.map extAttr))

def sequencePart (t : Ty) : Lang := tok c!"sequence" ⨾ angles (type t)

def frozenArrayPart (t : Ty) : Lang := tok c!"FrozenArray" ⨾ angles (type t)

def recordPart (kv : RecordKeyType × Ty) : Lang :=
  tok c!"record" ⨾ angles (recordKeyType kv.1 ⨾ comma ⨾ type kv.2)

/-- `(a or b or ...)` -/
def unionPart (ms : List UnionMember) : Lang := parens (sepBy (tok c!"or") (ms.map unionMember))

/-! The word of each modifier. -/

def modifierWord : StringifierOrInheritOrStatic → Lang
  | .stringifier => tok c!"stringifier"
  | .inherit => tok c!"inherit"
  | .static => tok c!"static"

def staticWord : StringifierOrStatic → Lang
  | .stringifier => tok c!"stringifier"
  | .static => tok c!"static"

def specialWord : Special → Lang
  | .getter => tok c!"getter"
  | .setter => tok c!"setter"
  | .deleter => tok c!"deleter"
  | .legacyCaller => tok c!"legacycaller"

/-! The alternatives. -/

inductive AttrKind where
  | argList | namedArgList | identList | ident | wildcard | noArgs

def attrKind : ExtAttr → AttrKind
  | .argList .. => .argList
  | .namedArgList .. => .namedArgList
  | .identList .. => .identList
  | .ident .. => .ident
  | .wildcard .. => .wildcard
  | .noArgs .. => .noArgs

inductive IntegerKind where
  | longLong | long | short

def integerKind : IntegerType → IntegerKind
  | .longLong _ => .longLong
  | .long _ => .long
  | .short _ => .short

inductive FloatKind where
  | float | double

def floatKind : FloatingPointType → FloatKind
  | .float _ => .float
  | .double _ => .double

/-- one or several -/
inductive Arity where
  | one | several

def argumentArity : Argument → Arity
  | .single .. => .one
  | .variadic .. => .several

def iterableArity : IterableInterfaceMember → Arity
  | .single .. => .one
  | .double .. => .several

def asyncIterableArity : AsyncIterableInterfaceMember → Arity
  | .single .. => .one
  | .double .. => .several

end Verif.Spec
