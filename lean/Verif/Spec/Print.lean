import Verif.Spec.Grammar

/-!
# Well-formed ASTs and a printer

The printer escapes every identifier with `_` and puts a space after every lexeme.
-/

namespace Verif.Spec

/-! ## Well-formed ASTs -/

/-- `[A-Za-z][0-9A-Z_a-z-]*` -/
def WfName (i : Str) : Prop := Regex.word.Matches i

def WfString (v : Str) : Prop := '"' ∉ v

def WfInteger : IntegerLit → Prop
  | .dec v => Regex.dec.Matches v
  | .hex v => Regex.hex.Matches v
  | .oct v => Regex.oct.Matches v

def WfFloat : FloatLit → Prop
  | .value v => Regex.float.Matches v
  | _ => True

def WfDefaultValue : DefaultValue → Prop
  | .float f => WfFloat f
  | .integer i => WfInteger i
  | .string v => WfString v
  | _ => True

def WfConstValue : ConstValue → Prop
  | .float f => WfFloat f
  | .integer i => WfInteger i
  | _ => True

def WfDefault : Option DefaultValue → Prop
  | none => True
  | some v => WfDefaultValue v

def WfIdentifierOrString : IdentifierOrString → Prop
  | .identifier i => WfName i
  | .string v => WfString v

/-- `ByteString`, `DOMString`, `USVString`, which are record key types of their own. -/
def IsStringType : NonAnyType → Prop
  | .builtin .byteString _ => True
  | .builtin .domString _ => True
  | .builtin .usvString _ => True
  | _ => False

def hasAttributes : AttributedType → Bool
  | .mk as _ => as.isSome

mutual

def WfType : Ty → Prop
  | .single t => WfSingleType t
  | .union ms _ => WfUnionMembers ms

def WfSingleType : SingleType → Prop
  | .any => True
  | .nonAny t => WfNonAnyType t

def WfNonAnyType : NonAnyType → Prop
  | .promise r => WfReturnType r
  | .sequence t _ => WfType t
  | .frozenArray t _ => WfType t
  | .record k v _ => WfRecordKeyType k ∧ WfType v
  | .identifier i _ => WfName i
  | _ => True

def WfRecordKeyType : RecordKeyType → Prop
  | .nonAny t => WfNonAnyType t ∧ ¬ IsStringType t
  | _ => True

def WfUnionMember : UnionMember → Prop
  | .single as t => WfAttributes as ∧ WfNonAnyType t
  | .union ms _ => WfUnionMembers ms

def WfUnionMembers : List UnionMember → Prop
  | [] => True
  | m :: ms => WfUnionMember m ∧ WfUnionMembers ms

def WfReturnType : ReturnType → Prop
  | .undefined => True
  | .type t => WfType t

def WfExtAttr : ExtAttr → Prop
  | .argList i args => WfName i ∧ WfArguments args
  | .namedArgList l r args => WfName l ∧ WfName r ∧ WfArguments args
  | .identList i is => WfName i ∧ ∀ j ∈ is, WfName j
  | .ident l r => WfName l ∧ WfIdentifierOrString r
  | .wildcard l => WfName l
  | .noArgs i => WfName i

def WfExtAttrs : List ExtAttr → Prop
  | [] => True
  | a :: as => WfExtAttr a ∧ WfExtAttrs as

def WfAttributes : Option (List ExtAttr) → Prop
  | none => True
  | some as => WfExtAttrs as

def WfAttributedType : AttributedType → Prop
  | .mk as t => WfAttributes as ∧ WfType t

/-- Only optional arguments have a default value. Attributes in front of a non-optional argument
belong to the argument. -/
def WfArgument : Argument → Prop
  | .single as optional t i d => WfAttributes as ∧ WfAttributedType t ∧ WfName i ∧ WfDefault d ∧
      (optional = false → d = none ∧ (as = none → hasAttributes t = false))
  | .variadic as t i => WfAttributes as ∧ WfType t ∧ WfName i

def WfArguments : List Argument → Prop
  | [] => True
  | a :: as => WfArgument a ∧ WfArguments as

end

def WfOptName : Option Str → Prop
  | none => True
  | some i => WfName i

def WfOptArguments : Option (List Argument) → Prop
  | none => True
  | some as => WfArguments as

def WfConstType : ConstType → Prop
  | .identifier i _ => WfName i
  | _ => True

def WfConst (m : ConstMember) : Prop :=
  WfAttributes m.attributes ∧ WfConstType m.constType ∧ WfName m.identifier ∧ WfConstValue m.constValue

def WfOperation (as : Attrs) (r : ReturnType) (i : Option Str) (args : List Argument) : Prop :=
  WfAttributes as ∧ WfReturnType r ∧ WfOptName i ∧ WfArguments args

def WfAttribute (as : Attrs) (t : AttributedType) (i : Str) : Prop :=
  WfAttributes as ∧ WfAttributedType t ∧ WfName i

def WfTypePair (p : AttributedType × AttributedType) : Prop := WfAttributedType p.1 ∧ WfAttributedType p.2

def WfInterfaceMember : InterfaceMember → Prop
  | .const m => WfConst m
  | .attribute m => WfAttribute m.attributes m.type_ m.identifier
  | .constructor m => WfAttributes m.attributes ∧ WfArguments m.args
  | .operation m => WfOperation m.attributes m.returnType m.identifier m.args
  | .iterable (.single as t) => WfAttributes as ∧ WfAttributedType t
  | .iterable (.double as p) => WfAttributes as ∧ WfTypePair p
  | .asyncIterable (.single as t args) => WfAttributes as ∧ WfAttributedType t ∧ WfOptArguments args
  | .asyncIterable (.double as p args) => WfAttributes as ∧ WfTypePair p ∧ WfOptArguments args
  | .maplike m => WfAttributes m.attributes ∧ WfTypePair m.generics
  | .setlike m => WfAttributes m.attributes ∧ WfAttributedType m.generics
  | .stringifier m => WfAttributes m.attributes

def WfMixinMember : MixinMember → Prop
  | .const m => WfConst m
  | .operation m => WfOperation m.attributes m.returnType m.identifier m.args
  | .attribute m => WfAttribute m.attributes m.type_ m.identifier
  | .stringifier m => WfAttributes m.attributes

def WfNamespaceMember : NamespaceMember → Prop
  | .const m => WfConst m
  | .operation m => WfOperation m.attributes m.returnType m.identifier m.args
  | .attribute m => WfAttribute m.attributes m.type_ m.identifier

def WfDictionaryMember (m : DictionaryMember) : Prop :=
  WfAttributes m.attributes ∧ WfType m.type_ ∧ WfName m.identifier ∧ WfDefault m.default

/-- `as`: the attributes, `i`: the name, `ms`: the members -/
def WfBody {α : Type} (W : α → Prop) (as : Attrs) (i : Str) (ms : List α) : Prop :=
  WfAttributes as ∧ WfName i ∧ ∀ m ∈ ms, W m

def WfDefinition : Definition → Prop
  | .callback as i r args => WfAttributes as ∧ WfName i ∧ WfReturnType r ∧ WfArguments args
  | .callbackInterface as i inh ms => WfBody WfInterfaceMember as i ms ∧ WfOptName inh
  | .interface as i inh ms => WfBody WfInterfaceMember as i ms ∧ WfOptName inh
  | .interfaceMixin as i ms => WfBody WfMixinMember as i ms
  | .namespace as i ms => WfBody WfNamespaceMember as i ms
  | .dictionary as i inh ms => WfBody WfDictionaryMember as i ms ∧ WfOptName inh
  | .partialInterface as i ms => WfBody WfInterfaceMember as i ms
  | .partialInterfaceMixin as i ms => WfBody WfMixinMember as i ms
  | .partialDictionary as i ms => WfBody WfDictionaryMember as i ms
  | .partialNamespace as i ms => WfBody WfNamespaceMember as i ms
  | .enum as i vs => WfBody WfString as i vs ∧ vs ≠ []
  | .typedef as t i => WfAttribute as t i
  | .includesStatement as l r => WfAttributes as ∧ WfName l ∧ WfName r
  | .implements as l r => WfAttributes as ∧ WfName l ∧ WfName r

def Wf (ds : List Definition) : Prop := ∀ d ∈ ds, WfDefinition d

/-! ## The printer -/

def printOpt (b : Bool) (w : Str) : List Str := if b then [w] else []

/-- a list with a separator between its elements -/
def printSep (sep : Str) : List (List Str) → List Str
  | [] => []
  | [a] => a
  | a :: b :: l => a ++ [sep] ++ printSep sep (b :: l)

def printName (i : Str) : List Str := ['_' :: i]

def printString (v : Str) : List Str := ['"' :: v ++ ['"']]

def printInteger : IntegerLit → List Str
  | .dec v => [v]
  | .hex v => [v]
  | .oct v => [v]

def printFloat : FloatLit → List Str
  | .value v => [v]
  | .negInfinity => [c!"-Infinity"]
  | .infinity => [c!"Infinity"]
  | .nan => [c!"NaN"]

def printBoolean (b : Bool) : List Str := if b then [c!"true"] else [c!"false"]

def printDefaultValue : DefaultValue → List Str
  | .boolean b => printBoolean b
  | .emptyArray => [c!"[", c!"]"]
  | .emptyDictionary => [c!"{", c!"}"]
  | .float f => printFloat f
  | .integer i => printInteger i
  | .null => [c!"null"]
  | .string v => printString v

def printConstValue : ConstValue → List Str
  | .boolean b => printBoolean b
  | .float f => printFloat f
  | .integer i => printInteger i
  | .null => [c!"null"]

def printDefault : Option DefaultValue → List Str
  | none => []
  | some v => c!"=" :: printDefaultValue v

def printIntegerType : IntegerType → List Str
  | .longLong u => printOpt u c!"unsigned" ++ [c!"long", c!"long"]
  | .long u => printOpt u c!"unsigned" ++ [c!"long"]
  | .short u => printOpt u c!"unsigned" ++ [c!"short"]

def printFloatingPointType : FloatingPointType → List Str
  | .float u => printOpt u c!"unrestricted" ++ [c!"float"]
  | .double u => printOpt u c!"unrestricted" ++ [c!"double"]

def printIdentifierOrString : IdentifierOrString → List Str
  | .identifier i => printName i
  | .string v => printString v

mutual

def printType : Ty → List Str
  | .single t => printSingleType t
  | .union ms q => c!"(" :: printSep c!"or" (printUnionMembers ms) ++ [c!")"] ++ printOpt q c!"?"

def printSingleType : SingleType → List Str
  | .any => [c!"any"]
  | .nonAny t => printNonAnyType t

def printNonAnyType : NonAnyType → List Str
  | .promise r => [c!"Promise", c!"<"] ++ printReturnType r ++ [c!">"]
  | .integer t q => printIntegerType t ++ printOpt q c!"?"
  | .floatingPoint t q => printFloatingPointType t ++ printOpt q c!"?"
  | .builtin b q => builtinWord b :: printOpt q c!"?"
  | .sequence t q => [c!"sequence", c!"<"] ++ printType t ++ [c!">"] ++ printOpt q c!"?"
  | .frozenArray t q => [c!"FrozenArray", c!"<"] ++ printType t ++ [c!">"] ++ printOpt q c!"?"
  | .record k v q => [c!"record", c!"<"] ++ printRecordKeyType k ++ [c!","] ++ printType v ++ [c!">"] ++
      printOpt q c!"?"
  | .identifier i q => printName i ++ printOpt q c!"?"

def printRecordKeyType : RecordKeyType → List Str
  | .byte => [c!"ByteString"]
  | .dom => [c!"DOMString"]
  | .usv => [c!"USVString"]
  | .nonAny t => printNonAnyType t

def printUnionMember : UnionMember → List Str
  | .single as t => printAttributes as ++ printNonAnyType t
  | .union ms q => c!"(" :: printSep c!"or" (printUnionMembers ms) ++ [c!")"] ++ printOpt q c!"?"

def printUnionMembers : List UnionMember → List (List Str)
  | [] => []
  | m :: ms => printUnionMember m :: printUnionMembers ms

def printReturnType : ReturnType → List Str
  | .undefined => [c!"undefined"]
  | .type t => printType t

def printExtAttr : ExtAttr → List Str
  | .argList i args => printName i ++ [c!"("] ++ printSep c!"," (printArguments args) ++ [c!")"]
  | .namedArgList l r args => printName l ++ [c!"="] ++ printName r ++ [c!"("] ++
      printSep c!"," (printArguments args) ++ [c!")"]
  | .identList i is => printName i ++ [c!"=", c!"("] ++ printSep c!"," (is.map printName) ++ [c!")"]
  | .ident l r => printName l ++ [c!"="] ++ printIdentifierOrString r
  | .wildcard l => printName l ++ [c!"=", c!"*"]
  | .noArgs i => printName i

def printExtAttrs : List ExtAttr → List (List Str)
  | [] => []
  | a :: as => printExtAttr a :: printExtAttrs as

def printAttributes : Option (List ExtAttr) → List Str
  | none => []
  | some as => c!"[" :: printSep c!"," (printExtAttrs as) ++ [c!"]"]

def printAttributedType : AttributedType → List Str
  | .mk as t => printAttributes as ++ printType t

def printArgument : Argument → List Str
  | .single as optional t i d => printAttributes as ++ printOpt optional c!"optional" ++
      printAttributedType t ++ printName i ++ printDefault d
  | .variadic as t i => printAttributes as ++ printType t ++ [c!"..."] ++ printName i

def printArguments : List Argument → List (List Str)
  | [] => []
  | a :: as => printArgument a :: printArguments as

end

def printArgumentList (args : List Argument) : List Str :=
  c!"(" :: printSep c!"," (printArguments args) ++ [c!")"]

def printOptArgumentList : Option (List Argument) → List Str
  | none => []
  | some args => printArgumentList args

def printConstType : ConstType → List Str
  | .integer t q => printIntegerType t ++ printOpt q c!"?"
  | .floatingPoint t q => printFloatingPointType t ++ printOpt q c!"?"
  | .boolean q => c!"boolean" :: printOpt q c!"?"
  | .byte q => c!"byte" :: printOpt q c!"?"
  | .octet q => c!"octet" :: printOpt q c!"?"
  | .identifier i q => printName i ++ printOpt q c!"?"

def printOptName : Option Str → List Str
  | none => []
  | some i => printName i

def printConst (m : ConstMember) : List Str :=
  printAttributes m.attributes ++ [c!"const"] ++ printConstType m.constType ++ printName m.identifier ++
    [c!"="] ++ printConstValue m.constValue ++ [c!";"]

def printModifier : Option StringifierOrInheritOrStatic → List Str
  | none => []
  | some .stringifier => [c!"stringifier"]
  | some .inherit => [c!"inherit"]
  | some .static => [c!"static"]

def printStringifierOrStatic : Option StringifierOrStatic → List Str
  | none => []
  | some .stringifier => [c!"stringifier"]
  | some .static => [c!"static"]

def printSpecial : Option Special → List Str
  | none => []
  | some .getter => [c!"getter"]
  | some .setter => [c!"setter"]
  | some .deleter => [c!"deleter"]
  | some .legacyCaller => [c!"legacycaller"]

def printOperation (r : ReturnType) (i : Option Str) (args : List Argument) : List Str :=
  printReturnType r ++ printOptName i ++ printArgumentList args ++ [c!";"]

def printAttribute (readonly : Bool) (t : AttributedType) (i : Str) : List Str :=
  printOpt readonly c!"readonly" ++ [c!"attribute"] ++ printAttributedType t ++ printName i ++ [c!";"]

def printTypePair (p : AttributedType × AttributedType) : List Str :=
  printAttributedType p.1 ++ [c!","] ++ printAttributedType p.2

def printInterfaceMember : InterfaceMember → List Str
  | .const m => printConst m
  | .attribute m => printAttributes m.attributes ++ printModifier m.modifier ++
      printAttribute m.readonly m.type_ m.identifier
  | .constructor m => printAttributes m.attributes ++ [c!"constructor"] ++ printArgumentList m.args ++ [c!";"]
  | .operation m => printAttributes m.attributes ++ printStringifierOrStatic m.modifier ++
      printSpecial m.special ++ printOperation m.returnType m.identifier m.args
  | .iterable (.single as t) => printAttributes as ++ [c!"iterable", c!"<"] ++ printAttributedType t ++
      [c!">", c!";"]
  | .iterable (.double as p) => printAttributes as ++ [c!"iterable", c!"<"] ++ printTypePair p ++ [c!">", c!";"]
  | .asyncIterable (.single as t args) => printAttributes as ++ [c!"async", c!"iterable", c!"<"] ++
      printAttributedType t ++ [c!">"] ++ printOptArgumentList args ++ [c!";"]
  | .asyncIterable (.double as p args) => printAttributes as ++ [c!"async", c!"iterable", c!"<"] ++
      printTypePair p ++ [c!">"] ++ printOptArgumentList args ++ [c!";"]
  | .maplike m => printAttributes m.attributes ++ printOpt m.readonly c!"readonly" ++ [c!"maplike", c!"<"] ++
      printTypePair m.generics ++ [c!">", c!";"]
  | .setlike m => printAttributes m.attributes ++ printOpt m.readonly c!"readonly" ++ [c!"setlike", c!"<"] ++
      printAttributedType m.generics ++ [c!">", c!";"]
  | .stringifier m => printAttributes m.attributes ++ [c!"stringifier", c!";"]

def printMixinMember : MixinMember → List Str
  | .const m => printConst m
  | .operation m => printAttributes m.attributes ++ printOpt m.stringifier c!"stringifier" ++
      printOperation m.returnType m.identifier m.args
  | .attribute m => printAttributes m.attributes ++ printOpt m.stringifier c!"stringifier" ++
      printAttribute m.readonly m.type_ m.identifier
  | .stringifier m => printAttributes m.attributes ++ [c!"stringifier", c!";"]

def printNamespaceMember : NamespaceMember → List Str
  | .const m => printConst m
  | .operation m => printAttributes m.attributes ++ printOperation m.returnType m.identifier m.args
  | .attribute m => printAttributes m.attributes ++ printAttribute true m.type_ m.identifier

def printDictionaryMember (m : DictionaryMember) : List Str :=
  printAttributes m.attributes ++ printOpt m.required c!"required" ++ printType m.type_ ++
    printName m.identifier ++ printDefault m.default ++ [c!";"]

def printInheritance : Option Str → List Str
  | none => []
  | some i => c!":" :: printName i

/-- attributes, keywords, name, base, members -/
def printBody {α : Type} (print : α → List Str) (as : Attrs) (kws : List Str) (i : Str) (inh : Option Str)
    (ms : List α) : List Str :=
  printAttributes as ++ kws ++ printName i ++ printInheritance inh ++ [c!"{"] ++ ms.flatMap print ++
    [c!"}", c!";"]

def printDefinition : Definition → List Str
  | .callback as i r args => printAttributes as ++ [c!"callback"] ++ printName i ++ [c!"="] ++
      printReturnType r ++ printArgumentList args ++ [c!";"]
  | .callbackInterface as i inh ms => printBody printInterfaceMember as [c!"callback", c!"interface"] i inh ms
  | .interface as i inh ms => printBody printInterfaceMember as [c!"interface"] i inh ms
  | .interfaceMixin as i ms => printBody printMixinMember as [c!"interface", c!"mixin"] i none ms
  | .namespace as i ms => printBody printNamespaceMember as [c!"namespace"] i none ms
  | .dictionary as i inh ms => printBody printDictionaryMember as [c!"dictionary"] i inh ms
  | .partialInterface as i ms => printBody printInterfaceMember as [c!"partial", c!"interface"] i none ms
  | .partialInterfaceMixin as i ms =>
      printBody printMixinMember as [c!"partial", c!"interface", c!"mixin"] i none ms
  | .partialDictionary as i ms => printBody printDictionaryMember as [c!"partial", c!"dictionary"] i none ms
  | .partialNamespace as i ms => printBody printNamespaceMember as [c!"partial", c!"namespace"] i none ms
  | .enum as i vs => printAttributes as ++ [c!"enum"] ++ printName i ++ [c!"{"] ++
      printSep c!"," (vs.map printString) ++ [c!"}", c!";"]
  | .typedef as t i => printAttributes as ++ [c!"typedef"] ++ printAttributedType t ++ printName i ++ [c!";"]
  | .includesStatement as l r => printAttributes as ++ printName l ++ [c!"includes"] ++ printName r ++ [c!";"]
  | .implements as l r => printAttributes as ++ printName l ++ [c!"implements"] ++ printName r ++ [c!";"]

/-- The text of a list of definitions. -/
def print (ds : List Definition) : Str := spaced (ds.flatMap printDefinition)

end Verif.Spec
