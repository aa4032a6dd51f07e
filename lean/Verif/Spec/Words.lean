import Verif.Spec.Kind
import Verif.Spec.Missing

/-!
# Names and keywords that can be left out, or exchanged
-/

namespace Verif.Spec

/-- An item that begins like a name. -/
def IsWord (w : Str) : Prop := ∃ c v, w = c :: v ∧ (c.isAlpha = Bool.true ∨ c = '_')

/-- The words that have a place of their own in the grammar. -/
def grammarWords : List Str :=
  [c!"any", c!"async", c!"attribute", c!"callback", c!"const", c!"constructor", c!"deleter", c!"dictionary", c!"double", c!"enum", c!"float",
   c!"FrozenArray", c!"getter", c!"implements", c!"includes", c!"inherit", c!"interface", c!"iterable", c!"legacycaller", c!"long",
   c!"maplike", c!"mixin", c!"namespace", c!"optional", c!"or", c!"partial", c!"Promise", c!"readonly", c!"record", c!"required",
   c!"sequence", c!"setlike", c!"setter", c!"short", c!"static", c!"stringifier", c!"typedef", c!"unrestricted", c!"unsigned", c!"true",
   c!"false", c!"null", c!"Infinity", c!"NaN"]

/-- A word that is not a keyword. -/
def PlainName (w : Str) : Prop := IsWord w ∧ w ∉ grammarWords

/-- The items before and after a word that is left out without notice. -/
inductive WordMayLack : List Str → List Str → Prop where
  /-- the name of an operation: `A b();` and `A ();` -/
  | operation {a b : List Str} {w : Str} (h : IsWord w ∨ w ∈ [c!")", c!">", c!"?"]) : WordMayLack (a ++ [w]) (c!"(" :: b)
  /-- the type of an operation, whose name is then the type: `A b();` and `b();` -/
  | type {a b : List Str} {w : Str} (h : IsWord w) : WordMayLack a (w :: c!"(" :: b)
  /-- all that is in parentheses: `(A) b` and `() b` -/
  | parens {a b : List Str} : WordMayLack (a ++ [c!"("]) (c!")" :: b)
  /-- all attributes: `[A]` and `[]` -/
  | brackets {a b : List Str} : WordMayLack (a ++ [c!"["]) (c!"]" :: b)
  /-- `attribute () b;`, an attribute whose type is the empty union, and `attribute ();`, an operation that has no name -/
  | attribute {a b c : List Str} (h : Balanced c) : WordMayLack (a ++ c!"attribute" :: c!"(" :: c ++ [c!")"]) (c!";" :: b)
  /-- `[A=b()]` and `[A=()]` -/
  | value {a b : List Str} : WordMayLack (a ++ [c!"="]) (c!"(" :: c!")" :: b)
  /-- `interface mixin A {};` and `interface mixin {};` -/
  | mixin {a b : List Str} : WordMayLack (a ++ [c!"interface", c!"mixin"]) (c!"{" :: b)

/-- The keywords that are types, or begin types, and can be replaced by the name of a type. -/
def typeKeywords : List Str := [c!"any", c!"long", c!"short", c!"float", c!"double", c!"unsigned", c!"unrestricted"]

/-- Keywords that are replaced by a word that is not a keyword without notice, and the items after them. -/
inductive KeywordMayChange : Str → List Str → Prop where
  /-- `constructor();` and `A();`, an operation -/
  | constructor {b : List Str} : KeywordMayChange c!"constructor" (c!"(" :: b)
  /-- `static A();` and `B A();` -/
  | modifier {b : List Str} {k w : Str} (hk : k ∈ [c!"static", c!"getter", c!"setter", c!"deleter", c!"legacycaller", c!"stringifier"])
      (hw : IsWord w) : KeywordMayChange k (w :: c!"(" :: b)
  /-- `typedef includes A;` and `B includes A;` -/
  | typedef {b : List Str} {w : Str} (hw : w ∈ [c!"includes", c!"implements"]) : KeywordMayChange c!"typedef" (w :: b)

/-- The keywords that are not optional. -/
def required : List Str :=
  [c!"attribute", c!"const", c!"constructor", c!"dictionary", c!"enum", c!"FrozenArray", c!"implements", c!"includes", c!"interface",
   c!"iterable", c!"maplike", c!"namespace", c!"or", c!"Promise", c!"record", c!"sequence", c!"setlike", c!"typedef", c!"true", c!"false",
   c!"null", c!"Infinity", c!"NaN"]

/-- The items before and after a required keyword that is left out without notice. -/
inductive KeywordMayLack : List Str → Str → List Str → Prop where
  /-- `(long or long)` and `(long long)` -/
  | words {a b : List Str} {w w' : Str} (h : (w, w') ∈ wordPairs) : KeywordMayLack (a ++ [w]) c!"or" (w' :: b)

end Verif.Spec
