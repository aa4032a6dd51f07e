import Verif.Spec.Words

/-!
# Literals, words, marks and keywords that can be exchanged
-/

namespace Verif.Spec

/-- An item that begins like a string. -/
def IsString (w : Str) : Prop := ∃ v, w = '"' :: v

/-- An item that begins like a number. -/
def IsNumber (w : Str) : Prop := (∃ c v, w = c :: v ∧ (c.isDigit = Bool.true ∨ c = '.' ∨ c = '-')) ∧ w ≠ c!"..."

/-- The keywords that are values. -/
def valueKeywords : List Str := [c!"true", c!"false", c!"null", c!"Infinity", c!"NaN"]

/-- The opening and closing brackets. -/
def bracketItems : List Str := [c!"(", c!")", c!"[", c!"]", c!"{", c!"}", c!"<", c!">"]

/-- The items before and after a literal that is left out without notice. -/
inductive LiteralMayLack : List Str → List Str → Prop where
  /-- `enum A {"b", "c"};` and `enum A {"b", };` -/
  | last {a b : List Str} : LiteralMayLack (a ++ [c!","]) (c!"}" :: b)

/-- The items before and after a mark that takes the place of a word, or the other way round, without notice. -/
inductive MarkMayReplace : List Str → Str → List Str → Prop where
  /-- `A b();` and `A ?();` -/
  | nullable {a b : List Str} : MarkMayReplace a c!"?" (c!"(" :: b)
  /-- `[A=b]` and `[A=*]` -/
  | any {a b : List Str} : MarkMayReplace (a ++ [c!"="]) c!"*" b
  /-- `(optional A b)` and `(optional ... b)`, where the type is called `optional` -/
  | variadic {a b : List Str} : MarkMayReplace (a ++ [c!"optional"]) c!"..." b
  /-- `stringifier A b();` and `stringifier; b();` -/
  | stringifier {a b : List Str} : MarkMayReplace (a ++ [c!"stringifier"]) c!";" b

/-- Keywords that can take the place of one another. -/
def exchangeable : List (List Str) :=
  [[c!"callback", c!"partial"], [c!"interface", c!"dictionary", c!"namespace"], [c!"includes", c!"implements"],
   [c!"getter", c!"setter", c!"deleter", c!"legacycaller", c!"static", c!"stringifier"],
   [c!"inherit", c!"readonly", c!"static", c!"stringifier"], [c!"iterable", c!"maplike"], [c!"iterable", c!"setlike"],
   [c!"FrozenArray", c!"Promise", c!"sequence"], valueKeywords]

end Verif.Spec
