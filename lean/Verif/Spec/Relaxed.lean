import Verif.Spec.WebIDL

/-!
# What the parser accepts beyond Web IDL

`extra` lists alternatives in addition to those of the standard (`Verif/Spec/WebIDL.lean`), and `Integral`,
`Regex.identifier` are wider classes of tokens. `DerivesIn` is `Derives` for an arbitrary set of productions.
-/

namespace Verif.Spec.WebIDL
open NonTerminal Symbol

/-- Productions, and the two classes of tokens that vary. -/
structure Grammar where
  productions : NonTerminal → List Alt
  identifier : Str → Prop
  integer : Str → Prop

mutual

/-- `DerivesIn G N ls`: with the productions of `G`, the nonterminal `N` derives the tokens `ls`. -/
inductive DerivesIn (G : Grammar) : NonTerminal → List Str → Prop where
  | mk {N : NonTerminal} {rhs : Alt} {ls : List Str} (h : rhs ∈ G.productions N) (hs : DerivesAllIn G rhs ls) :
      DerivesIn G N ls

/-- The symbols of an alternative derive tokens one after the other. -/
inductive DerivesAllIn (G : Grammar) : Alt → List Str → Prop where
  | nil : DerivesAllIn G [] []
  | terminal {w : Str} {ss : Alt} {ls : List Str} (hs : DerivesAllIn G ss ls) : DerivesAllIn G (t w :: ss) (w :: ls)
  | nonTerminal {N : NonTerminal} {ss : Alt} {l ls : List Str} (h : DerivesIn G N l) (hs : DerivesAllIn G ss ls) :
      DerivesAllIn G (n N :: ss) (l ++ ls)
  | identifier {w : Str} {ss : Alt} {ls : List Str} (h : G.identifier w) (hs : DerivesAllIn G ss ls) :
      DerivesAllIn G (identifier :: ss) (w :: ls)
  | integer {w : Str} {ss : Alt} {ls : List Str} (h : G.integer w) (hs : DerivesAllIn G ss ls) :
      DerivesAllIn G (integer :: ss) (w :: ls)
  | decimal {w : Str} {ss : Alt} {ls : List Str} (h : Decimal w) (hs : DerivesAllIn G ss ls) :
      DerivesAllIn G (decimal :: ss) (w :: ls)
  | string {w : Str} {ss : Alt} {ls : List Str} (h : String w) (hs : DerivesAllIn G ss ls) :
      DerivesAllIn G (string :: ss) (w :: ls)

end

/-- The grammar of the standard. -/
def standard : Grammar := ⟨productions, Identifier, Integer⟩

/-- The alternatives of a type other than `any` that are not strings. -/
def keyTypes : List Alt := (productions DistinguishableType).erase [StringType, Null] ++ [[n PromiseType]]

/-- Additional alternatives. -/
def extra : List (NonTerminal × Alt) := [
  -- `A implements B;`
  (IncludesStatement, [identifier, t c!"implements", identifier, t c!";"]),
  -- callback interfaces inherit and have members of all kinds
  (CallbackRestOrInterface, [t c!"interface", InterfaceRest]),
  -- partial interfaces have constructors
  (PartialInterfaceMember, [Constructor]),
  -- `stringifier getter long f();`
  (PartialInterfaceMember, [t c!"stringifier", SpecialOperation]),
  -- `static getter long f();`
  (PartialInterfaceMember, [t c!"static", SpecialOperation]),
  -- `inherit readonly attribute long a;`
  (InheritAttribute, [t c!"inherit", t c!"readonly", AttributeRest]),
  -- `const long? x = 1;`
  (ConstType, [PrimitiveType, t c!"?"]),
  -- `const A? x = 1;`
  (ConstType, [identifier, t c!"?"]),
  -- `const A x = null;`
  (ConstValue, [t c!"null"]),
  -- `[A] [B] long x` as an argument
  (ArgumentRest, [TypeWithExtendedAttributes, ArgumentName]),
  -- `required long x = 1;`
  (DictionaryMemberRest, [t c!"required", Required, identifier, t c!"=", DefaultValue, t c!";"]),
  -- `()` as a type
  (UnionType, [t c!"(", t c!")"]),
  -- `(long)` as a type
  (UnionType, [t c!"(", UnionMemberType, t c!")"]),
  -- `(long or Promise<any>)`
  (UnionMemberType, [ExtendedAttributeList, PromiseType]),
  -- `[]` in front of a definition, a member, an argument, a type
  (ExtendedAttributeList, [t c!"[", t c!"]"]),
  -- `[A=()]`
  (ExtendedAttributeIdentList, [identifier, t c!"=", t c!"(", t c!")"])] ++
  -- `record<long, any>`
  keyTypes.map fun K => (RecordType, [t c!"record", t c!"<"] ++ K ++ [t c!",", Generic, t c!">"])

/-- The alternatives of the standard, and those among `xs`. -/
def withExtra (xs : List (NonTerminal × Alt)) (N : NonTerminal) : List Alt :=
  productions N ++ (xs.filter (·.1 = N)).map (·.2)

/-- An integer of the standard, or `0x` without digits. -/
def Integral (w : Str) : Prop := Integer w ∨ w ∈ [c!"0x", c!"0X", c!"-0x", c!"-0X"]

/-- The grammar of the standard with the additional alternatives, and `0x`. -/
def relaxed : Grammar := ⟨withExtra extra, Identifier, Integral⟩

/-- Moreover, every word may be an identifier, also if it is a terminal. -/
def loose : Grammar := ⟨withExtra extra, Regex.identifier.Matches, Integral⟩

end Verif.Spec.WebIDL
