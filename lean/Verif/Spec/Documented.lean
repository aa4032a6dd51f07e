import Verif.Spec.Types

/-!
# The productions in the documentation

Each type of the crate is documented with the form it parses. A `Pat` is such a form as it is written, without
spaces, together with the lexemes that it stands for.
-/

namespace Verif.Spec

/-- A form: how it is written, and what it stands for. -/
structure Pat where
  shown : Str
  lang : Lang

namespace Pat

/-- these characters -/
def word (w : Str) : Pat := ⟨w, tok w⟩

/-- "(( )) means ( ) chars" -/
def open2 : Pat := ⟨c!"((", tok c!"("⟩
def close2 : Pat := ⟨c!"))", tok c!")"⟩

/-- a name for something else -/
def hole {α : Type} (shown : Str) (L : α → Lang) : Pat := ⟨shown, fun ls => ∃ a, L a ls⟩

/-- one after the other -/
def seq (p q : Pat) : Pat := ⟨p.shown ++ q.shown, p.lang ⨾ q.lang⟩

infixr:65 " ⌢ " => Pat.seq

/-- `p?` -/
def opt (p : Pat) : Pat := ⟨p.shown ++ c!"?", fun ls => ls = [] ∨ p.lang ls⟩

/-- `(p)` -/
def group (p : Pat) : Pat := ⟨c!"(" ++ (p.shown ++ c!")"), p.lang⟩

/-- `p|q` -/
def either (p q : Pat) : Pat := ⟨p.shown ++ (c!"|" ++ q.shown), fun ls => p.lang ls ∨ q.lang ls⟩

infixr:60 " ⦀ " => Pat.either

/-! ## What the names stand for -/

def attrs : Pat := opt (word c!"[" ⌢ hole c!"attributes" (fun as => sepBy comma (extAttrs as)) ⌢ word c!"]")
def ident : Pat := hole c!"identifier" name
def ty : Pat := hole c!"type" type
def capitalType : Pat := hole c!"Type" type
def attributedTy : Pat := hole c!"attributedtype" attributedType
def returnTy : Pat := hole c!"returntype" Spec.returnType
def args : Pat := open2 ⌢ hole c!"args" (fun as => sepBy comma (arguments as)) ⌢ close2
def optInheritance : Pat := opt (group (word c!":" ⌢ hole c!"inheritance" name))
def optDefault : Pat := opt (group (word c!"=" ⌢ hole c!"default" defaultValue))
def members {α : Type} (L : α → Lang) : Pat :=
  word c!"{" ⌢ hole c!"members" (fun ms : List α => concat (ms.map L)) ⌢ word c!"}" ⌢ word c!";"

/-! ## argument.rs -/

def singleArgument : Pat := attrs ⌢ opt (word c!"optional") ⌢ attributedTy ⌢ ident ⌢ optDefault
def variadicArgument : Pat := attrs ⌢ ty ⌢ word c!"..." ⌢ ident

/-! ## common.rs, literal.rs -/

def identifier : Pat := ⟨c!"/_?[A-Za-z][0-9A-Z_a-z-]*/", fun ls => ∃ w, Regex.identifier.Matches w ∧ ls = [w]⟩
def decLit : Pat := hole c!"-?[1-9][0-9]*" (literal Regex.dec)
def octLit : Pat := hole c!"-?0[0-7]*" (literal Regex.oct)
/-- with one parenthesis too many -/
def hexLit : Pat := hole c!"-?0[Xx][0-9A-Fa-f]+)" (literal Regex.hexDoc)
def floatValueLit : Pat :=
  hole c!"/-?(([0-9]+\\.[0-9]*|[0-9]*\\.[0-9]+)([Ee][+-]?[0-9]+)?|[0-9]+[Ee][+-]?[0-9]+)/" (literal Regex.float)
def stringLit : Pat := ⟨c!"/\"[^\"]*\"/", fun ls => ∃ w, Regex.string.Matches w ∧ ls = [w]⟩
def emptyArrayLit : Pat := word c!"[" ⌢ word c!"]"
def emptyDictionaryLit : Pat := word c!"{" ⌢ word c!"}"

/-! ## dictionary.rs -/

def dictionaryMember : Pat := attrs ⌢ opt (word c!"required") ⌢ ty ⌢ ident ⌢ optDefault ⌢ word c!";"

/-! ## interface.rs, mixin.rs, namespace.rs -/

def inheritance : Pat := word c!":" ⌢ ident
def constMember : Pat :=
  attrs ⌢ word c!"const" ⌢ hole c!"type" constType ⌢ ident ⌢ word c!"=" ⌢ hole c!"value" constValue ⌢ word c!";"
def stringifierOrInheritOrStatic : Pat := word c!"stringifier" ⦀ word c!"inherit" ⦀ word c!"static"
def stringifierOrStatic : Pat := word c!"stringifier" ⦀ word c!"static"
def special : Pat := word c!"getter" ⦀ word c!"setter" ⦀ word c!"deleter"
def attributeInterfaceMember : Pat :=
  attrs ⌢ opt (group stringifierOrInheritOrStatic) ⌢ opt (word c!"readonly") ⌢ word c!"attribute" ⌢ attributedTy ⌢
    ident ⌢ word c!";"
def constructorInterfaceMember : Pat := attrs ⌢ word c!"constructor" ⌢ args ⌢ word c!";"
def operationInterfaceMember : Pat :=
  attrs ⌢ opt (group stringifierOrStatic) ⌢ opt (hole c!"special" specialWord) ⌢ returnTy ⌢ opt ident ⌢ args ⌢
    word c!";"
def iterable1 : Pat := word c!"iterable" ⌢ word c!"<" ⌢ attributedTy ⌢ word c!">"
def iterable2 : Pat := word c!"iterable" ⌢ word c!"<" ⌢ attributedTy ⌢ word c!"," ⌢ attributedTy ⌢ word c!">"
def singleTypedIterable : Pat := attrs ⌢ iterable1 ⌢ word c!";"
def doubleTypedIterable : Pat := attrs ⌢ iterable2 ⌢ word c!";"
def iterable : Pat := attrs ⌢ group (iterable1 ⦀ iterable2) ⌢ word c!";"
def singleTypedAsyncIterable : Pat := attrs ⌢ word c!"async" ⌢ iterable1 ⌢ opt args ⌢ word c!";"
def doubleTypedAsyncIterable : Pat := attrs ⌢ word c!"async" ⌢ iterable2 ⌢ opt args ⌢ word c!";"
def asyncIterable : Pat := attrs ⌢ word c!"async" ⌢ group (iterable1 ⦀ iterable2) ⌢ opt args ⌢ word c!";"
def maplike : Pat :=
  attrs ⌢ opt (word c!"readonly") ⌢ word c!"maplike" ⌢ word c!"<" ⌢ attributedTy ⌢ word c!"," ⌢ attributedTy ⌢
    word c!">" ⌢ word c!";"
def stringifierMember : Pat := word c!"stringifier" ⌢ word c!";"
def operationMixinMember : Pat :=
  attrs ⌢ opt (word c!"stringifier") ⌢ returnTy ⌢ opt ident ⌢ args ⌢ word c!";"
def attributeMixinMember : Pat :=
  attrs ⌢ opt (word c!"stringifier") ⌢ opt (word c!"readonly") ⌢ word c!"attribute" ⌢ attributedTy ⌢ ident ⌢
    word c!";"
def operationNamespaceMember : Pat := attrs ⌢ returnTy ⌢ opt ident ⌢ args ⌢ word c!";"
/-- as it is written, with the word `attributetype` -/
def attributeNamespaceMember : Pat :=
  opt (word c!"[" ⌢ hole c!"attribute" (fun as => sepBy comma (extAttrs as)) ⌢ word c!"]") ⌢
    word c!"readonly" ⌢ word c!"attributetype" ⌢ ty ⌢ ident ⌢ word c!";"

/-! ## lib.rs -/

def callback : Pat :=
  attrs ⌢ word c!"callback" ⌢ ident ⌢ word c!"=" ⌢ hole c!"type" Spec.returnType ⌢ word c!"(" ⌢
    hole c!"(arg1,arg2,...,argN)?" (fun as => sepBy comma (arguments as)) ⌢ word c!")" ⌢ word c!";"
def callbackInterface : Pat :=
  attrs ⌢ word c!"callback" ⌢ word c!"interface" ⌢ ident ⌢ optInheritance ⌢ members interfaceMember
def interface : Pat := attrs ⌢ word c!"interface" ⌢ ident ⌢ optInheritance ⌢ members interfaceMember
def interfaceMixin : Pat := attrs ⌢ word c!"interface" ⌢ word c!"mixin" ⌢ ident ⌢ members mixinMember
def «namespace» : Pat := attrs ⌢ word c!"namespace" ⌢ ident ⌢ members namespaceMember
def dictionary : Pat := attrs ⌢ word c!"dictionary" ⌢ ident ⌢ optInheritance ⌢ members Spec.dictionaryMember
def partialInterface : Pat := attrs ⌢ word c!"partial" ⌢ word c!"interface" ⌢ ident ⌢ members interfaceMember
def partialInterfaceMixin : Pat :=
  attrs ⌢ word c!"partial" ⌢ word c!"interface" ⌢ word c!"mixin" ⌢ ident ⌢ members mixinMember
def partialDictionary : Pat :=
  attrs ⌢ word c!"partial" ⌢ word c!"dictionary" ⌢ ident ⌢ members Spec.dictionaryMember
def partialNamespace : Pat := attrs ⌢ word c!"partial" ⌢ word c!"namespace" ⌢ ident ⌢ members namespaceMember
def enum : Pat :=
  attrs ⌢ word c!"enum" ⌢ ident ⌢ word c!"{" ⌢ hole c!"values" enumValues ⌢ word c!"}" ⌢ word c!";"
def typedef : Pat := attrs ⌢ word c!"typedef" ⌢ attributedTy ⌢ ident ⌢ word c!";"
def includes : Pat := attrs ⌢ ident ⌢ word c!"includes" ⌢ ident ⌢ word c!";"
def implements : Pat := attrs ⌢ ident ⌢ word c!"implements" ⌢ ident ⌢ word c!";"

/-! ## types.rs -/

def sequence : Pat := word c!"sequence" ⌢ word c!"<" ⌢ capitalType ⌢ word c!">"
def frozenArray : Pat := word c!"FrozenArray" ⌢ word c!"<" ⌢ capitalType ⌢ word c!">"
def promise : Pat := word c!"Promise" ⌢ word c!"<" ⌢ (capitalType ⦀ word c!"undefined") ⌢ word c!">"
def longLong : Pat := opt (word c!"unsigned") ⌢ word c!"long" ⌢ word c!"long"
def long : Pat := opt (word c!"unsigned") ⌢ word c!"long"
def short : Pat := opt (word c!"unsigned") ⌢ word c!"short"
def integerType : Pat :=
  opt (word c!"unsigned") ⌢ (word c!"short" ⦀ word c!"long" ⦀ group (word c!"long" ⌢ word c!"long"))
def float : Pat := opt (word c!"unrestricted") ⌢ word c!"float"
def double : Pat := opt (word c!"unrestricted") ⌢ word c!"double"
def floatingPointType : Pat := opt (word c!"unrestricted") ⌢ (word c!"float" ⦀ word c!"double")
def record : Pat :=
  word c!"record" ⌢ word c!"<" ⌢ hole c!"StringType" recordKeyType ⌢ word c!"," ⌢ capitalType ⌢ word c!">"
def attributedType : Pat := attrs ⌢ ty
def attributedNonAnyType : Pat := attrs ⌢ hole c!"type" nonAnyType

end Pat

/-- The text `s` is of the form `p`. -/
def Follows (p : Pat) (s : Str) : Prop := ∃ t ls b, s = t ++ b ∧ Trivia t ∧ p.lang ls ∧ Text ls b

end Verif.Spec
