import Verif.Spec.Grammar

/-!
# Places in a document

`Place L M a b put ok`: `b` is a part of `a`, and `put b'` is `a` with `b'` in place of this part. `L` are the spellings of
`a` and `M` those of the part. `ok` is the set of the values that can stand in this place; most places allow all values.
-/

namespace Verif.Spec

/-- values one after the other -/
def all {α : Type} (L : α → Lang) (as : List α) : Lang := concat (as.map L)

/-- values with commas between them -/
def commas {α : Type} (L : α → Lang) (as : List α) : Lang := sepBy comma (as.map L)

def attributesOf : Definition → Attrs
  | .callback as .. | .callbackInterface as .. | .interface as .. | .interfaceMixin as .. | .namespace as .. | .dictionary as ..
  | .partialInterface as .. | .partialInterfaceMixin as .. | .partialDictionary as .. | .partialNamespace as .. | .enum as ..
  | .typedef as .. | .includesStatement as .. | .implements as .. => as

/-- The definition with other attributes. -/
def withAttributes (as : Attrs) : Definition → Definition
  | .callback _ i r args => .callback as i r args
  | .callbackInterface _ i inh ms => .callbackInterface as i inh ms
  | .interface _ i inh ms => .interface as i inh ms
  | .interfaceMixin _ i ms => .interfaceMixin as i ms
  | .namespace _ i ms => .namespace as i ms
  | .dictionary _ i inh ms => .dictionary as i inh ms
  | .partialInterface _ i ms => .partialInterface as i ms
  | .partialInterfaceMixin _ i ms => .partialInterfaceMixin as i ms
  | .partialDictionary _ i ms => .partialDictionary as i ms
  | .partialNamespace _ i ms => .partialNamespace as i ms
  | .enum _ i vs => .enum as i vs
  | .typedef _ t i => .typedef as t i
  | .includesStatement _ l r => .includesStatement as l r
  | .implements _ l r => .implements as l r

/-- The name of a definition; for `a includes b;` and `a implements b;` this is `a`. -/
def nameOf : Definition → Str
  | .callback _ i .. | .callbackInterface _ i .. | .interface _ i .. | .interfaceMixin _ i .. | .namespace _ i ..
  | .dictionary _ i .. | .partialInterface _ i .. | .partialInterfaceMixin _ i .. | .partialDictionary _ i ..
  | .partialNamespace _ i .. | .enum _ i .. | .typedef _ _ i | .includesStatement _ i _ | .implements _ i _ => i

/-- The definition with another name. -/
def renamed (i : Str) : Definition → Definition
  | .callback as _ r args => .callback as i r args
  | .callbackInterface as _ inh ms => .callbackInterface as i inh ms
  | .interface as _ inh ms => .interface as i inh ms
  | .interfaceMixin as _ ms => .interfaceMixin as i ms
  | .namespace as _ ms => .namespace as i ms
  | .dictionary as _ inh ms => .dictionary as i inh ms
  | .partialInterface as _ ms => .partialInterface as i ms
  | .partialInterfaceMixin as _ ms => .partialInterfaceMixin as i ms
  | .partialDictionary as _ ms => .partialDictionary as i ms
  | .partialNamespace as _ ms => .partialNamespace as i ms
  | .enum as _ vs => .enum as i vs
  | .typedef as t _ => .typedef as t i
  | .includesStatement as _ r => .includesStatement as i r
  | .implements as _ r => .implements as i r

/-- The name of an extended attribute. -/
def attributeName : ExtAttr → Str
  | .argList i _ | .namedArgList i _ _ | .identList i _ | .ident i _ | .wildcard i | .noArgs i => i

def attributeRenamed (i : Str) : ExtAttr → ExtAttr
  | .argList _ args => .argList i args
  | .namedArgList _ j args => .namedArgList i j args
  | .identList _ is => .identList i is
  | .ident _ v => .ident i v
  | .wildcard _ => .wildcard i
  | .noArgs _ => .noArgs i

def interfaceMemberAttributes : InterfaceMember → Attrs
  | .const m => m.attributes
  | .attribute m => m.attributes
  | .constructor m => m.attributes
  | .operation m => m.attributes
  | .iterable (.single as _) | .iterable (.double as _) => as
  | .asyncIterable (.single as _ _) | .asyncIterable (.double as _ _) => as
  | .maplike m => m.attributes
  | .setlike m => m.attributes
  | .stringifier m => m.attributes

/-- The member with other attributes. -/
def interfaceMemberWith (as : Attrs) : InterfaceMember → InterfaceMember
  | .const m => .const { m with attributes := as }
  | .attribute m => .attribute { m with attributes := as }
  | .constructor m => .constructor { m with attributes := as }
  | .operation m => .operation { m with attributes := as }
  | .iterable (.single _ t) => .iterable (.single as t)
  | .iterable (.double _ p) => .iterable (.double as p)
  | .asyncIterable (.single _ t args) => .asyncIterable (.single as t args)
  | .asyncIterable (.double _ p args) => .asyncIterable (.double as p args)
  | .maplike m => .maplike { m with attributes := as }
  | .setlike m => .setlike { m with attributes := as }
  | .stringifier _ => .stringifier ⟨as⟩

def mixinMemberAttributes : MixinMember → Attrs
  | .const m => m.attributes
  | .operation m => m.attributes
  | .attribute m => m.attributes
  | .stringifier m => m.attributes

def mixinMemberWith (as : Attrs) : MixinMember → MixinMember
  | .const m => .const { m with attributes := as }
  | .operation m => .operation { m with attributes := as }
  | .attribute m => .attribute { m with attributes := as }
  | .stringifier _ => .stringifier ⟨as⟩

def namespaceMemberAttributes : NamespaceMember → Attrs
  | .const m => m.attributes
  | .operation m => m.attributes
  | .attribute m => m.attributes

def namespaceMemberWith (as : Attrs) : NamespaceMember → NamespaceMember
  | .const m => .const { m with attributes := as }
  | .operation m => .operation { m with attributes := as }
  | .attribute m => .attribute { m with attributes := as }

/-- The name, if the type is just a name (`A` or `A?`). -/
def plainName : Ty → Option Str
  | .single (.nonAny (.identifier i _)) => some i
  | _ => none

/-- The type `t` is not just one of the names `ws`. -/
def NotNamed (ws : List Str) (t : Ty) : Prop := ∀ w ∈ ws, plainName t ≠ some w

def NotNamedReturn (ws : List Str) : ReturnType → Prop
  | .undefined => True
  | .type t => NotNamed ws t

/-- The last words of the types of two words. After another type, such a name may be read as part of the type. -/
def lastWords : List Str := [c!"long", c!"short", c!"float", c!"double"]

/-- Names that can always stand after a type. -/
def NotLast (i : Str) : Prop := i ∉ lastWords

/-- Names that can stand for the name of a definition of this kind. -/
def CanName : Definition → Str → Prop
  | .typedef .., i => NotLast i
  | .includesStatement .., i | .implements .., i => i ≠ c!"typedef"
  | _, _ => True

inductive Place : {α β : Type} → (α → Lang) → (β → Lang) → α → β → (β → α) → (β → Prop) → Prop where
  /-- the whole -/
  | here {α : Type} (L : α → Lang) (a : α) : Place L L a a id (fun _ => True)
  /-- a part of a part -/
  | inside {α β γ : Type} {L : α → Lang} {M : β → Lang} {N : γ → Lang} {a : α} {b : β} {c : γ} {put : β → α} {put' : γ → β}
      {ok : β → Prop} {ok' : γ → Prop} : Place L M a b put ok → Place M N b c put' ok' →
      Place L N a c (fun c' => put (put' c')) (fun c' => ok' c' ∧ ok (put' c'))
  -- lists
  /-- some of the values in a list -/
  | items {α : Type} (L : α → Lang) (as bs cs : List α) :
      Place (all L) (all L) (as ++ bs ++ cs) bs (fun bs' => as ++ bs' ++ cs) (fun _ => True)
  /-- one of the values in a list -/
  | item {α : Type} (L : α → Lang) (as : List α) (b : α) (cs : List α) :
      Place (all L) L (as ++ b :: cs) b (fun b' => as ++ b' :: cs) (fun _ => True)
  /-- one of the values in a list with commas -/
  | element {α : Type} (L : α → Lang) (as : List α) (b : α) (cs : List α) :
      Place (commas L) L (as ++ b :: cs) b (fun b' => as ++ b' :: cs) (fun _ => True)
  -- definitions
  | document (ds : List Definition) : Place definitions (all definition) ds ds id (fun _ => True)
  | definitionAttributes (d : Definition) :
      Place definition attributes d (attributesOf d) (withAttributes · d) (fun _ => True)
  | interfaceBody (as : Attrs) (i : Str) (inh : Option Str) (ms : List InterfaceMember) :
      Place definition (all interfaceMember) (.interface as i inh ms) ms (.interface as i inh) (fun _ => True)
  | callbackInterfaceBody (as : Attrs) (i : Str) (inh : Option Str) (ms : List InterfaceMember) :
      Place definition (all interfaceMember) (.callbackInterface as i inh ms) ms (.callbackInterface as i inh) (fun _ => True)
  | partialInterfaceBody (as : Attrs) (i : Str) (ms : List InterfaceMember) :
      Place definition (all interfaceMember) (.partialInterface as i ms) ms (.partialInterface as i) (fun _ => True)
  | mixinBody (as : Attrs) (i : Str) (ms : List MixinMember) :
      Place definition (all mixinMember) (.interfaceMixin as i ms) ms (.interfaceMixin as i) (fun _ => True)
  | partialMixinBody (as : Attrs) (i : Str) (ms : List MixinMember) :
      Place definition (all mixinMember) (.partialInterfaceMixin as i ms) ms (.partialInterfaceMixin as i) (fun _ => True)
  | namespaceBody (as : Attrs) (i : Str) (ms : List NamespaceMember) :
      Place definition (all namespaceMember) (.namespace as i ms) ms (.namespace as i) (fun _ => True)
  | partialNamespaceBody (as : Attrs) (i : Str) (ms : List NamespaceMember) :
      Place definition (all namespaceMember) (.partialNamespace as i ms) ms (.partialNamespace as i) (fun _ => True)
  | dictionaryBody (as : Attrs) (i : Str) (inh : Option Str) (ms : List DictionaryMember) :
      Place definition (all dictionaryMember) (.dictionary as i inh ms) ms (.dictionary as i inh) (fun _ => True)
  | partialDictionaryBody (as : Attrs) (i : Str) (ms : List DictionaryMember) :
      Place definition (all dictionaryMember) (.partialDictionary as i ms) ms (.partialDictionary as i) (fun _ => True)
  | callbackReturn (as : Attrs) (i : Str) (r : ReturnType) (args : List Argument) :
      Place definition returnType (.callback as i r args) r (.callback as i · args) (fun _ => True)
  | callbackArguments (as : Attrs) (i : Str) (r : ReturnType) (args : List Argument) :
      Place definition argumentList (.callback as i r args) args (.callback as i r) (fun _ => True)
  | typedefType (as : Attrs) (t : AttributedType) (i : Str) (hi : i ∉ lastWords) :
      Place definition attributedType (.typedef as t i) t (.typedef as · i) (fun _ => True)
  | definitionName (d : Definition) : Place definition name d (nameOf d) (renamed · d) (CanName d)
  | includesMixin (as : Attrs) (i j : Str) :
      Place definition name (.includesStatement as i j) j (.includesStatement as i) (fun _ => True)
  | implementsInterface (as : Attrs) (i j : Str) :
      Place definition name (.implements as i j) j (.implements as i) (fun _ => True)
  | interfaceBase (as : Attrs) (i j : Str) (ms : List InterfaceMember) :
      Place definition name (.interface as i (some j) ms) j (fun j => .interface as i (some j) ms) (fun _ => True)
  | callbackInterfaceBase (as : Attrs) (i j : Str) (ms : List InterfaceMember) :
      Place definition name (.callbackInterface as i (some j) ms) j (fun j => .callbackInterface as i (some j) ms) (fun _ => True)
  | dictionaryBase (as : Attrs) (i j : Str) (ms : List DictionaryMember) :
      Place definition name (.dictionary as i (some j) ms) j (fun j => .dictionary as i (some j) ms) (fun _ => True)
  | enumValue (as : Attrs) (i : Str) (vs : List Str) (v : Str) (vs' : List Str) :
      Place definition string (.enum as i (vs ++ v :: vs')) v (fun v => .enum as i (vs ++ v :: vs')) (fun _ => True)
  -- members
  | interfaceMemberAttributes (m : InterfaceMember) :
      Place interfaceMember attributes m (interfaceMemberAttributes m) (interfaceMemberWith · m) (fun _ => True)
  | mixinMemberAttributes (m : MixinMember) :
      Place mixinMember attributes m (mixinMemberAttributes m) (mixinMemberWith · m) (fun _ => True)
  | namespaceMemberAttributes (m : NamespaceMember) :
      Place namespaceMember attributes m (namespaceMemberAttributes m) (namespaceMemberWith · m) (fun _ => True)
  | dictionaryMemberAttributes (m : DictionaryMember) :
      Place dictionaryMember attributes m m.attributes (fun as => { m with attributes := as }) (fun _ => True)
  | constName (m : ConstMember) :
      Place constMember name m m.identifier (fun i => { m with identifier := i }) NotLast
  | interfaceAttributeName (m : AttributeInterfaceMember) :
      Place interfaceMember name (.attribute m) m.identifier (fun i => .attribute { m with identifier := i }) NotLast
  | mixinAttributeName (m : AttributeMixinMember) :
      Place mixinMember name (.attribute m) m.identifier (fun i => .attribute { m with identifier := i }) NotLast
  | namespaceAttributeName (m : AttributeNamespaceMember) :
      Place namespaceMember name (.attribute m) m.identifier (fun i => .attribute { m with identifier := i }) NotLast
  | interfaceOperationName (m : OperationInterfaceMember) (i : Str) :
      Place interfaceMember name (.operation { m with identifier := some i }) i
        (fun i => .operation { m with identifier := some i }) NotLast
  | mixinOperationName (m : OperationMixinMember) (i : Str) :
      Place mixinMember name (.operation { m with identifier := some i }) i
        (fun i => .operation { m with identifier := some i }) NotLast
  | namespaceOperationName (m : OperationNamespaceMember) (i : Str) :
      Place namespaceMember name (.operation { m with identifier := some i }) i
        (fun i => .operation { m with identifier := some i }) NotLast
  | dictionaryMemberName (m : DictionaryMember) :
      Place dictionaryMember name m m.identifier (fun i => { m with identifier := i }) NotLast
  | interfaceConst (m : ConstMember) : Place interfaceMember constMember (.const m) m .const (fun _ => True)
  | mixinConst (m : ConstMember) : Place mixinMember constMember (.const m) m .const (fun _ => True)
  | namespaceConst (m : ConstMember) : Place namespaceMember constMember (.const m) m .const (fun _ => True)
  | constType (m : ConstMember) (hi : m.identifier ∉ lastWords) :
      Place constMember constType m m.constType (fun t => { m with constType := t }) (fun _ => True)
  | constValue (m : ConstMember) :
      Place constMember constValue m m.constValue (fun v => { m with constValue := v }) (fun _ => True)
  | interfaceAttributeType (m : AttributeInterfaceMember) (hi : m.identifier ∉ lastWords) :
      Place interfaceMember attributedType (.attribute m) m.type_ (fun t => .attribute { m with type_ := t }) (fun _ => True)
  | mixinAttributeType (m : AttributeMixinMember) (hi : m.identifier ∉ lastWords) :
      Place mixinMember attributedType (.attribute m) m.type_ (fun t => .attribute { m with type_ := t }) (fun _ => True)
  | namespaceAttributeType (m : AttributeNamespaceMember) (hi : m.identifier ∉ lastWords) :
      Place namespaceMember attributedType (.attribute m) m.type_ (fun t => .attribute { m with type_ := t }) (fun _ => True)
  | constructorArguments (m : ConstructorInterfaceMember) :
      Place interfaceMember argumentList (.constructor m) m.args (fun args => .constructor { m with args }) (fun _ => True)
  | interfaceArguments (m : OperationInterfaceMember) :
      Place interfaceMember argumentList (.operation m) m.args (fun args => .operation { m with args }) (fun _ => True)
  | mixinArguments (m : OperationMixinMember) :
      Place mixinMember argumentList (.operation m) m.args (fun args => .operation { m with args }) (fun _ => True)
  | namespaceArguments (m : OperationNamespaceMember) :
      Place namespaceMember argumentList (.operation m) m.args (fun args => .operation { m with args }) (fun _ => True)
  | interfaceReturn (m : OperationInterfaceMember) (hi : ∀ i, m.identifier = some i → i ∉ lastWords) :
      Place interfaceMember returnType (.operation m) m.returnType (fun r => .operation { m with returnType := r })
        (NotNamedReturn [c!"stringifier", c!"static", c!"getter", c!"setter", c!"deleter", c!"legacycaller", c!"constructor"])
  | mixinReturn (m : OperationMixinMember) (hi : ∀ i, m.identifier = some i → i ∉ lastWords) :
      Place mixinMember returnType (.operation m) m.returnType (fun r => .operation { m with returnType := r })
        (NotNamedReturn [c!"stringifier"])
  | namespaceReturn (m : OperationNamespaceMember) (hi : ∀ i, m.identifier = some i → i ∉ lastWords) :
      Place namespaceMember returnType (.operation m) m.returnType (fun r => .operation { m with returnType := r })
        (fun _ => True)
  | iterableType (as : Attrs) (t : AttributedType) :
      Place interfaceMember attributedType (.iterable (.single as t)) t (fun t => .iterable (.single as t)) (fun _ => True)
  | iterableTypes (as : Attrs) (p : AttributedType × AttributedType) :
      Place interfaceMember typePair (.iterable (.double as p)) p (fun p => .iterable (.double as p)) (fun _ => True)
  | asyncIterableType (as : Attrs) (t : AttributedType) (args : Option (List Argument)) :
      Place interfaceMember attributedType (.asyncIterable (.single as t args)) t (fun t => .asyncIterable (.single as t args))
        (fun _ => True)
  | asyncIterableTypes (as : Attrs) (p : AttributedType × AttributedType) (args : Option (List Argument)) :
      Place interfaceMember typePair (.asyncIterable (.double as p args)) p (fun p => .asyncIterable (.double as p args))
        (fun _ => True)
  | maplikeTypes (m : MaplikeInterfaceMember) :
      Place interfaceMember typePair (.maplike m) m.generics (fun p => .maplike { m with generics := p }) (fun _ => True)
  | setlikeType (m : SetlikeInterfaceMember) :
      Place interfaceMember attributedType (.setlike m) m.generics (fun t => .setlike { m with generics := t }) (fun _ => True)
  | firstType (t u : AttributedType) : Place typePair attributedType (t, u) t (fun t => (t, u)) (fun _ => True)
  | secondType (t u : AttributedType) : Place typePair attributedType (t, u) u (fun u => (t, u)) (fun _ => True)
  | dictionaryType (m : DictionaryMember) (hi : m.identifier ∉ lastWords) :
      Place dictionaryMember type m m.type_ (fun t => { m with type_ := t }) (NotNamed [c!"required"])
  | dictionaryDefault (as : Attrs) (req : Bool) (t : Ty) (i : Str) (v : DefaultValue) :
      Place dictionaryMember defaultValue ⟨as, req, t, i, some v⟩ v (fun v => ⟨as, req, t, i, some v⟩) (fun _ => True)
  -- attributes and arguments
  | attributeItems (as : List ExtAttr) : Place attributes (commas extAttr) (some as) as some (fun _ => True)
  | attributeName (a : ExtAttr) : Place extAttr name a (attributeName a) (attributeRenamed · a) (fun _ => True)
  | attributeValue (i : Str) (v : IdentifierOrString) :
      Place extAttr identifierOrString (.ident i v) v (.ident i) (fun _ => True)
  | attributeNames (i : Str) (is : List Str) (j : Str) (is' : List Str) :
      Place extAttr name (.identList i (is ++ j :: is')) j (fun j => .identList i (is ++ j :: is')) (fun _ => True)
  | attributeArguments (i : Str) (args : List Argument) :
      Place extAttr argumentList (.argList i args) args (.argList i) (fun _ => True)
  | attributeNamedArguments (i j : Str) (args : List Argument) :
      Place extAttr argumentList (.namedArgList i j args) args (.namedArgList i j) (fun _ => True)
  | arguments (args : List Argument) : Place argumentList (commas argument) args args id (fun _ => True)
  | argumentAttributes (as : Attrs) (opt : Bool) (t : AttributedType) (i : Str) (d : Option DefaultValue) :
      Place argument attributes (.single as opt t i d) as (.single · opt t i d)
        (fun as => opt = true ∨ as ≠ none ∨ ∃ u, t = .mk none u)
  | argumentType (as : Attrs) (opt : Bool) (t : AttributedType) (i : Str) (d : Option DefaultValue) (hi : i ∉ lastWords) :
      Place argument attributedType (.single as opt t i d) t (.single as opt · i d)
        (fun t => opt = true ∨ (as ≠ none ∨ ∃ u, t = .mk none u) ∧ ∃ as u, t = .mk as u ∧ (as ≠ none ∨ NotNamed [c!"optional"] u))
  | argumentDefault (as : Attrs) (opt : Bool) (t : AttributedType) (i : Str) (v : DefaultValue) :
      Place argument defaultValue (.single as opt t i (some v)) v (fun v => .single as opt t i (some v)) (fun _ => True)
  | argumentName (as : Attrs) (opt : Bool) (t : AttributedType) (i : Str) (d : Option DefaultValue) :
      Place argument name (.single as opt t i d) i (.single as opt t · d) NotLast
  | variadicName (as : Attrs) (t : Ty) (i : Str) :
      Place argument name (.variadic as t i) i (.variadic as t) (fun _ => True)
  | variadicAttributes (as : Attrs) (t : Ty) (i : Str) :
      Place argument attributes (.variadic as t i) as (.variadic · t i) (fun _ => True)
  | variadicType (as : Attrs) (t : Ty) (i : Str) :
      Place argument type (.variadic as t i) t (.variadic as · i) (fun _ => True)
  -- types
  | typeAttributes (as : Attrs) (t : Ty) :
      Place attributedType attributes (.mk as t) as (.mk · t) (fun _ => True)
  | attributedType (as : Attrs) (t : Ty) : Place attributedType type (.mk as t) t (.mk as) (fun _ => True)
  | returnType (t : Ty) : Place returnType type (.type t) t .type (NotNamed [c!"undefined"])
  | singleType (t : NonAnyType) : Place type nonAnyType (.single (.nonAny t)) t (fun t => .single (.nonAny t))
      (fun t => ∀ q, t ≠ .identifier c!"any" q)
  | unionMember (ms : List UnionMember) (m : UnionMember) (ms' : List UnionMember) (q : Bool) :
      Place type unionMember (.union (ms ++ m :: ms') q) m (fun m => .union (ms ++ m :: ms') q) (fun _ => True)
  | nestedUnionMember (ms : List UnionMember) (m : UnionMember) (ms' : List UnionMember) (q : Bool) :
      Place unionMember unionMember (.union (ms ++ m :: ms') q) m (fun m => .union (ms ++ m :: ms') q) (fun _ => True)
  | unionMemberAttributes (as : Attrs) (t : NonAnyType) :
      Place unionMember attributes (.single as t) as (.single · t) (fun _ => True)
  | unionMemberType (as : Attrs) (t : NonAnyType) :
      Place unionMember nonAnyType (.single as t) t (.single as) (fun _ => True)
  | promise (r : ReturnType) : Place nonAnyType returnType (.promise r) r .promise (fun _ => True)
  | sequence (t : Ty) (q : Bool) : Place nonAnyType type (.sequence t q) t (.sequence · q) (fun _ => True)
  | frozenArray (t : Ty) (q : Bool) : Place nonAnyType type (.frozenArray t q) t (.frozenArray · q) (fun _ => True)
  | recordKey (k : RecordKeyType) (v : Ty) (q : Bool) :
      Place nonAnyType recordKeyType (.record k v q) k (.record · v q) (fun _ => True)
  | recordValue (k : RecordKeyType) (v : Ty) (q : Bool) :
      Place nonAnyType type (.record k v q) v (.record k · q) (fun _ => True)
  | recordKeyNonAny (t : NonAnyType) : Place recordKeyType nonAnyType (.nonAny t) t .nonAny
      (fun t => ∀ q, t ≠ .builtin .byteString q ∧ t ≠ .builtin .domString q ∧ t ≠ .builtin .usvString q)

end Verif.Spec
