import Verif.Spec.Lexical
import Verif.Model.Ast

/-!
# The grammar: how each AST node is spelled

Texts are lists of lexemes (words, literals, punctuation) separated by trivia. `type t ls` says
that the lexemes `ls` spell the type `t`, and so on for every AST node. Nothing here mentions a
parser. Where the documented productions overlap, the
condition that selects the reading is written out with `avoiding`, `typeName` and `named`.
-/

namespace Verif.Spec

/-- A set of lexeme lists. -/
abbrev Lang := List Str → Prop

/-! ## Building blocks -/

/-- nothing -/
def eps : Lang := fun ls => ls = []

/-- the lexeme `w` -/
def tok (w : Str) : Lang := fun ls => ls = [w]

/-- one after the other -/
def seq (A B : Lang) : Lang := fun ls => ∃ a b, ls = a ++ b ∧ A a ∧ B b

infixr:60 " ⨾ " => Verif.Spec.seq

/-- the lexeme `w` if `b`, otherwise nothing -/
def optTok (b : Bool) (w : Str) : Lang := if b then tok w else eps

/-- a list with a separator between its elements -/
def sepBy (sep : Lang) : List Lang → Lang
  | [] => eps
  | [A] => A
  | A :: B :: As => A ⨾ sep ⨾ sepBy sep (B :: As)

/-- the elements one after the other -/
def concat : List Lang → Lang
  | [] => eps
  | A :: As => A ⨾ concat As

/-- the spellings of `A` that begin with none of `ps` -/
def avoiding (ps : List (List Str)) (A : Lang) : Lang := fun ls => A ls ∧ ∀ p ∈ ps, ¬ p <+: ls

/-- an identifier: any word, possibly escaped with `_` -/
def name (i : Str) : Lang := fun ls => Regex.word.Matches i ∧ (ls = [i] ∨ ls = ['_' :: i])

/-- an optional identifier with something in front of it -/
def optName (pre : Lang) : Option Str → Lang
  | none => eps
  | some i => pre ⨾ name i

/-- an identifier that must be escaped if it is one of `reserved` -/
def typeName (reserved : List Str) (i : Str) : Lang := fun ls =>
  Regex.word.Matches i ∧ (ls = [i] ∧ i ∉ reserved ∨ ls = ['_' :: i])

/-- a string literal -/
def string (v : Str) : Lang := fun ls => '"' ∉ v ∧ ls = ['"' :: v ++ ['"']]

/-- a literal described by a regular expression -/
def literal (re : Regex) (v : Str) : Lang := fun ls => re.Matches v ∧ ls = [v]

/-- The types of more than one word. -/
def twoWordTypes : List (List Str) :=
  [[c!"long", c!"long"], [c!"unsigned", c!"long"], [c!"unsigned", c!"short"],
   [c!"unsigned", c!"long", c!"long"], [c!"unrestricted", c!"float"],
   [c!"unrestricted", c!"double"]]

/-- A type followed by a name. The name does not complete a longer type: `long long` is a
type and not a `long` called `long` (which is written `long _long`). -/
def named (T : Lang) (i : Str) : Lang := fun ls =>
  ∃ a b, ls = a ++ b ∧ T a ∧ name i b ∧ a ++ b ∉ twoWordTypes

def comma : Lang := tok c!","
def parens (A : Lang) : Lang := tok c!"(" ⨾ A ⨾ tok c!")"
def brackets (A : Lang) : Lang := tok c!"[" ⨾ A ⨾ tok c!"]"
def braces (A : Lang) : Lang := tok c!"{" ⨾ A ⨾ tok c!"}"
def angles (A : Lang) : Lang := tok c!"<" ⨾ A ⨾ tok c!">"

/-! ## Literals -/

def integerLit : IntegerLit → Lang
  | .dec v => literal Regex.dec v
  | .hex v => literal Regex.hex v
  | .oct v => literal Regex.oct v

def floatLit : FloatLit → Lang
  | .value v => literal Regex.float v
  | .negInfinity => tok c!"-Infinity"
  | .infinity => tok c!"Infinity"
  | .nan => tok c!"NaN"

def booleanLit : Bool → Lang
  | true => tok c!"true"
  | false => tok c!"false"

def defaultValue : DefaultValue → Lang
  | .boolean b => booleanLit b
  | .emptyArray => tok c!"[" ⨾ tok c!"]"
  | .emptyDictionary => tok c!"{" ⨾ tok c!"}"
  | .float f => floatLit f
  | .integer i => integerLit i
  | .null => tok c!"null"
  | .string v => string v

def constValue : ConstValue → Lang
  | .boolean b => booleanLit b
  | .float f => floatLit f
  | .integer i => integerLit i
  | .null => tok c!"null"

/-- `= value`, optional -/
def default : Option DefaultValue → Lang
  | none => eps
  | some v => tok c!"=" ⨾ defaultValue v

/-! ## Types, attributes, arguments -/

def integerType : IntegerType → Lang
  | .longLong u => optTok u c!"unsigned" ⨾ tok c!"long" ⨾ tok c!"long"
  | .long u => optTok u c!"unsigned" ⨾ tok c!"long"
  | .short u => optTok u c!"unsigned" ⨾ tok c!"short"

def floatingPointType : FloatingPointType → Lang
  | .float u => optTok u c!"unrestricted" ⨾ tok c!"float"
  | .double u => optTok u c!"unrestricted" ⨾ tok c!"double"

def builtinWord : Builtin → Str
  | .boolean => c!"boolean"
  | .byte => c!"byte"
  | .octet => c!"octet"
  | .byteString => c!"ByteString"
  | .domString => c!"DOMString"
  | .usvString => c!"USVString"
  | .object => c!"object"
  | .symbol => c!"symbol"
  | .error => c!"Error"
  | .arrayBuffer => c!"ArrayBuffer"
  | .dataView => c!"DataView"
  | .int8Array => c!"Int8Array"
  | .int16Array => c!"Int16Array"
  | .int32Array => c!"Int32Array"
  | .uint8Array => c!"Uint8Array"
  | .uint16Array => c!"Uint16Array"
  | .uint32Array => c!"Uint32Array"
  | .uint8ClampedArray => c!"Uint8ClampedArray"
  | .float32Array => c!"Float32Array"
  | .float64Array => c!"Float64Array"
  | .arrayBufferView => c!"ArrayBufferView"
  | .bufferSource => c!"BufferSource"

/-- The words that are types by themselves. -/
def typeWords : List Str :=
  [c!"long", c!"short", c!"float", c!"double", c!"boolean", c!"byte", c!"octet", c!"ByteString",
   c!"DOMString", c!"USVString", c!"object", c!"symbol", c!"Error", c!"ArrayBuffer", c!"DataView",
   c!"Int8Array", c!"Int16Array", c!"Int32Array", c!"Uint8Array", c!"Uint16Array",
   c!"Uint32Array", c!"Uint8ClampedArray", c!"Float32Array", c!"Float64Array",
   c!"ArrayBufferView", c!"BufferSource"]

def identifierOrString : IdentifierOrString → Lang
  | .identifier i => name i
  | .string v => string v

mutual

def type : Ty → Lang
  | .single t => singleType t
  | .union ms q => parens (sepBy (tok c!"or") (unionMembers ms)) ⨾ optTok q c!"?"

def singleType : SingleType → Lang
  | .any => tok c!"any"
  | .nonAny t => avoiding [[c!"any"]] (nonAnyType t)

def nonAnyType : NonAnyType → Lang
  | .promise r => tok c!"Promise" ⨾ angles (returnType r)
  | .integer t q => integerType t ⨾ optTok q c!"?"
  | .floatingPoint t q => floatingPointType t ⨾ optTok q c!"?"
  | .builtin b q => tok (builtinWord b) ⨾ optTok q c!"?"
  | .sequence t q => (tok c!"sequence" ⨾ angles (type t)) ⨾ optTok q c!"?"
  | .frozenArray t q => (tok c!"FrozenArray" ⨾ angles (type t)) ⨾ optTok q c!"?"
  | .record k v q => (tok c!"record" ⨾ angles (recordKeyType k ⨾ comma ⨾ type v)) ⨾ optTok q c!"?"
  | .identifier i q => typeName typeWords i ⨾ optTok q c!"?"

def recordKeyType : RecordKeyType → Lang
  | .byte => tok c!"ByteString"
  | .dom => tok c!"DOMString"
  | .usv => tok c!"USVString"
  | .nonAny t => avoiding [[c!"ByteString"], [c!"DOMString"], [c!"USVString"]] (nonAnyType t)

def unionMember : UnionMember → Lang
  | .single as t => attributes as ⨾ nonAnyType t
  | .union ms q => parens (sepBy (tok c!"or") (unionMembers ms)) ⨾ optTok q c!"?"

def unionMembers : List UnionMember → List Lang
  | [] => []
  | m :: ms => unionMember m :: unionMembers ms

def returnType : ReturnType → Lang
  | .undefined => tok c!"undefined"
  | .type t => avoiding [[c!"undefined"]] (type t)

def extAttr : ExtAttr → Lang
  | .argList i args => name i ⨾ parens (sepBy comma (arguments args))
  | .namedArgList l r args => name l ⨾ tok c!"=" ⨾ name r ⨾ parens (sepBy comma (arguments args))
  | .identList i is => name i ⨾ tok c!"=" ⨾ parens (sepBy comma (is.map name))
  | .ident l r => name l ⨾ tok c!"=" ⨾ identifierOrString r
  | .wildcard l => name l ⨾ tok c!"=" ⨾ tok c!"*"
  | .noArgs i => name i

def extAttrs : List ExtAttr → List Lang
  | [] => []
  | a :: as => extAttr a :: extAttrs as

/-- an optional list `[a, b, ...]` -/
def attributes : Option (List ExtAttr) → Lang
  | none => eps
  | some as => brackets (sepBy comma (extAttrs as))

def attributedType : AttributedType → Lang
  | .mk as t => attributes as ⨾ type t

/-- a type with its attributes, followed by a name -/
def namedAttributed : AttributedType → Str → Lang
  | .mk as t, i => attributes as ⨾ named (type t) i

/-- Attributes in front of a non-optional argument belong to the argument, not to its type;
only an optional argument has a default value. -/
def argument : Argument → Lang
  | .single as optional t i d => attributes as ⨾
    if optional then tok c!"optional" ⨾ namedAttributed t i ⨾ default d
    else fun ls => d = none ∧
      avoiding (if as.isSome then [[c!"optional"]] else [[c!"optional"], [c!"["]])
        (namedAttributed t i) ls
  | .variadic as t i => attributes as ⨾ type t ⨾ tok c!"..." ⨾ name i

def arguments : List Argument → List Lang
  | [] => []
  | a :: as => argument a :: arguments as

end

/-- `(a, b, ...)` -/
def argumentList (args : List Argument) : Lang := parens (sepBy comma (arguments args))

/-- `(a, b, ...)`, optional -/
def optArgumentList : Option (List Argument) → Lang
  | none => eps
  | some args => argumentList args

def constType : ConstType → Lang
  | .integer t q => integerType t ⨾ optTok q c!"?"
  | .floatingPoint t q => floatingPointType t ⨾ optTok q c!"?"
  | .boolean q => tok c!"boolean" ⨾ optTok q c!"?"
  | .byte q => tok c!"byte" ⨾ optTok q c!"?"
  | .octet q => tok c!"octet" ⨾ optTok q c!"?"
  | .identifier i q =>
    typeName [c!"long", c!"short", c!"float", c!"double", c!"boolean", c!"byte", c!"octet"] i ⨾
      optTok q c!"?"

/-! ## Members -/

/-- a return type with an optional name -/
def returnNamed (r : ReturnType) : Option Str → Lang
  | none => returnType r
  | some i => named (returnType r) i

def constMember (m : ConstMember) : Lang :=
  attributes m.attributes ⨾ tok c!"const" ⨾ named (constType m.constType) m.identifier ⨾
    tok c!"=" ⨾ constValue m.constValue ⨾ tok c!";"

def modifier : Option StringifierOrInheritOrStatic → Lang
  | none => eps
  | some .stringifier => tok c!"stringifier"
  | some .inherit => tok c!"inherit"
  | some .static => tok c!"static"

def attributeInterfaceMember (m : AttributeInterfaceMember) : Lang :=
  attributes m.attributes ⨾ modifier m.modifier ⨾ optTok m.readonly c!"readonly" ⨾
    tok c!"attribute" ⨾ namedAttributed m.type_ m.identifier ⨾ tok c!";"

def constructorInterfaceMember (m : ConstructorInterfaceMember) : Lang :=
  attributes m.attributes ⨾ tok c!"constructor" ⨾ argumentList m.args ⨾ tok c!";"

/-- Without a modifier, what follows does not begin with one. -/
def modified (m : Option StringifierOrStatic) (A : Lang) : Lang :=
  match m with
  | none => avoiding [[c!"stringifier"], [c!"static"]] A
  | some .stringifier => tok c!"stringifier" ⨾ A
  | some .static => tok c!"static" ⨾ A

/-- Without a special keyword, what follows does not begin with one. -/
def specialised (s : Option Special) (A : Lang) : Lang :=
  match s with
  | none => avoiding [[c!"getter"], [c!"setter"], [c!"deleter"], [c!"legacycaller"]] A
  | some .getter => tok c!"getter" ⨾ A
  | some .setter => tok c!"setter" ⨾ A
  | some .deleter => tok c!"deleter" ⨾ A
  | some .legacyCaller => tok c!"legacycaller" ⨾ A

/-- `constructor(...)` is not an operation without a name. -/
def operationInterfaceMember (m : OperationInterfaceMember) : Lang :=
  attributes m.attributes ⨾ avoiding [[c!"constructor", c!"("]]
    (modified m.modifier (specialised m.special
      (returnNamed m.returnType m.identifier ⨾ argumentList m.args ⨾ tok c!";")))

def typePair (p : AttributedType × AttributedType) : Lang :=
  attributedType p.1 ⨾ comma ⨾ attributedType p.2

def iterableInterfaceMember : IterableInterfaceMember → Lang
  | .single as t => attributes as ⨾ tok c!"iterable" ⨾ angles (attributedType t) ⨾ tok c!";"
  | .double as p => attributes as ⨾ tok c!"iterable" ⨾ angles (typePair p) ⨾ tok c!";"

def asyncIterableInterfaceMember : AsyncIterableInterfaceMember → Lang
  | .single as t args => attributes as ⨾ tok c!"async" ⨾ tok c!"iterable" ⨾
      angles (attributedType t) ⨾ optArgumentList args ⨾ tok c!";"
  | .double as p args => attributes as ⨾ tok c!"async" ⨾ tok c!"iterable" ⨾
      angles (typePair p) ⨾ optArgumentList args ⨾ tok c!";"

def maplikeInterfaceMember (m : MaplikeInterfaceMember) : Lang :=
  attributes m.attributes ⨾ optTok m.readonly c!"readonly" ⨾ tok c!"maplike" ⨾
    angles (typePair m.generics) ⨾ tok c!";"

def setlikeInterfaceMember (m : SetlikeInterfaceMember) : Lang :=
  attributes m.attributes ⨾ optTok m.readonly c!"readonly" ⨾ tok c!"setlike" ⨾
    angles (attributedType m.generics) ⨾ tok c!";"

def stringifierMember (m : StringifierMember) : Lang :=
  attributes m.attributes ⨾ tok c!"stringifier" ⨾ tok c!";"

def interfaceMember : InterfaceMember → Lang
  | .const m => constMember m
  | .attribute m => attributeInterfaceMember m
  | .constructor m => constructorInterfaceMember m
  | .operation m => operationInterfaceMember m
  | .iterable m => iterableInterfaceMember m
  | .asyncIterable m => asyncIterableInterfaceMember m
  | .maplike m => maplikeInterfaceMember m
  | .setlike m => setlikeInterfaceMember m
  | .stringifier m => stringifierMember m

/-- An optional keyword; without it, what follows does not begin with it. -/
def optWord (b : Bool) (w : Str) (A : Lang) : Lang := if b then tok w ⨾ A else avoiding [[w]] A

def operationMixinMember (m : OperationMixinMember) : Lang :=
  attributes m.attributes ⨾ optWord m.stringifier c!"stringifier"
    (returnNamed m.returnType m.identifier ⨾ argumentList m.args ⨾ tok c!";")

def attributeMixinMember (m : AttributeMixinMember) : Lang :=
  attributes m.attributes ⨾ optTok m.stringifier c!"stringifier" ⨾
    optTok m.readonly c!"readonly" ⨾ tok c!"attribute" ⨾
    namedAttributed m.type_ m.identifier ⨾ tok c!";"

def mixinMember : MixinMember → Lang
  | .const m => constMember m
  | .operation m => operationMixinMember m
  | .attribute m => attributeMixinMember m
  | .stringifier m => stringifierMember m

def operationNamespaceMember (m : OperationNamespaceMember) : Lang :=
  attributes m.attributes ⨾ returnNamed m.returnType m.identifier ⨾ argumentList m.args ⨾ tok c!";"

def attributeNamespaceMember (m : AttributeNamespaceMember) : Lang :=
  attributes m.attributes ⨾ tok c!"readonly" ⨾ tok c!"attribute" ⨾
    namedAttributed m.type_ m.identifier ⨾ tok c!";"

def namespaceMember : NamespaceMember → Lang
  | .const m => constMember m
  | .operation m => operationNamespaceMember m
  | .attribute m => attributeNamespaceMember m

def dictionaryMember (m : DictionaryMember) : Lang :=
  attributes m.attributes ⨾ optWord m.required c!"required"
    (named (type m.type_) m.identifier ⨾ default m.default ⨾ tok c!";")

/-! ## Definitions -/

/-- `: Base`, optional -/
def inheritance : Option Str → Lang := optName (tok c!":")

/-- `{ member... };` -/
def body {α : Type} (L : α → Lang) (ms : List α) : Lang := braces (concat (ms.map L)) ⨾ tok c!";"

/-- at least one string, and an optional comma after the last -/
def enumValues (vs : List Str) : Lang := fun ls =>
  vs ≠ [] ∧ ∃ comma? : Bool, (sepBy comma (vs.map string) ⨾ optTok comma? c!",") ls

/-- A bare `typedef` always begins a typedef. -/
def definition : Definition → Lang
  | .callback as i r args => attributes as ⨾ tok c!"callback" ⨾ name i ⨾ tok c!"=" ⨾
      returnType r ⨾ argumentList args ⨾ tok c!";"
  | .callbackInterface as i inh ms => attributes as ⨾ tok c!"callback" ⨾ tok c!"interface" ⨾
      name i ⨾ inheritance inh ⨾ body interfaceMember ms
  | .interface as i inh ms => attributes as ⨾ tok c!"interface" ⨾
      name i ⨾ inheritance inh ⨾ body interfaceMember ms
  | .interfaceMixin as i ms => attributes as ⨾ tok c!"interface" ⨾ tok c!"mixin" ⨾
      name i ⨾ body mixinMember ms
  | .namespace as i ms => attributes as ⨾ tok c!"namespace" ⨾ name i ⨾ body namespaceMember ms
  | .dictionary as i inh ms => attributes as ⨾ tok c!"dictionary" ⨾
      name i ⨾ inheritance inh ⨾ body dictionaryMember ms
  | .partialInterface as i ms => attributes as ⨾ tok c!"partial" ⨾ tok c!"interface" ⨾
      name i ⨾ body interfaceMember ms
  | .partialInterfaceMixin as i ms => attributes as ⨾ tok c!"partial" ⨾ tok c!"interface" ⨾
      tok c!"mixin" ⨾ name i ⨾ body mixinMember ms
  | .partialDictionary as i ms => attributes as ⨾ tok c!"partial" ⨾ tok c!"dictionary" ⨾
      name i ⨾ body dictionaryMember ms
  | .partialNamespace as i ms => attributes as ⨾ tok c!"partial" ⨾ tok c!"namespace" ⨾
      name i ⨾ body namespaceMember ms
  | .enum as i vs => attributes as ⨾ tok c!"enum" ⨾ name i ⨾ braces (enumValues vs) ⨾ tok c!";"
  | .typedef as t i => attributes as ⨾ tok c!"typedef" ⨾ namedAttributed t i ⨾ tok c!";"
  | .includesStatement as l r => attributes as ⨾ avoiding [[c!"typedef"]] (name l) ⨾
      tok c!"includes" ⨾ name r ⨾ tok c!";"
  | .implements as l r => attributes as ⨾ avoiding [[c!"typedef"]] (name l) ⨾
      tok c!"implements" ⨾ name r ⨾ tok c!";"

def definitions (ds : List Definition) : Lang := concat (ds.map definition)

/-! ## From lexemes to text -/

/-- `[0-9A-Za-z_-]` -/
def NameChar (c : Char) : Prop :=
  ('0' ≤ c ∧ c ≤ '9') ∨ ('A' ≤ c ∧ c ≤ 'Z') ∨ ('a' ≤ c ∧ c ≤ 'z') ∨ c = '_' ∨ c = '-'

/-- `w` and what follows it do not run together: a name character is not
followed by a name character. -/
def Apart (w s : Str) : Prop :=
  ∀ c d, w.getLast? = some c → s.head? = some d → NameChar c → ¬ NameChar d

/-- The lexemes in order, each followed by trivia. -/
inductive Text : List Str → Str → Prop where
  | nil : Text [] []
  | cons {w : Str} {ws : List Str} {t s : Str} (ht : Trivia t) (hs : Text ws s)
      (ha : Apart w (t ++ s)) : Text (w :: ws) (w ++ (t ++ s))

/-- The text `s` begins with the lexemes in order, each followed by trivia, and `r` is the rest. -/
inductive TextThen (r : Str) : List Str → Str → Prop where
  | nil : TextThen r [] r
  | cons {w : Str} {ws : List Str} {t s : Str} (ht : Trivia t) (hs : TextThen r ws s)
      (ha : Apart w (t ++ s)) : TextThen r (w :: ws) (w ++ (t ++ s))

/-- After trivia, `s` begins with a spelling of `a`, and `r` is the rest. -/
def Spells {α : Type} (L : α → Lang) (a : α) (s r : Str) : Prop :=
  ∃ t ls b, s = t ++ b ∧ Trivia t ∧ L a ls ∧ TextThen r ls b

/-- The text `s` is a document with the definitions `ds`. -/
def Document (ds : List Definition) (s : Str) : Prop :=
  (ds = [] ∧ s = []) ∨
  (ds ≠ [] ∧ ∃ t ls b, s = t ++ b ∧ Trivia t ∧ definitions ds ls ∧ Text ls b)

/-- Each lexeme followed by a space. -/
def spaced (ls : List Str) : Str :=
  match ls with
  | [] => []
  | w :: ls => w ++ (c!" " ++ spaced ls)

end Verif.Spec
