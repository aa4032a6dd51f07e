import Verif.Spec.Lexing

/-!
# Punctuation marks that can be left out, or exchanged
-/

namespace Verif.Spec

/-- The punctuation marks that separate or end parts. -/
def separators : List Str := [c!",", c!";", c!":", c!"=", c!"*"]

/-- The punctuation marks that are not brackets. -/
def signs : List Str := separators ++ [c!"?", c!"..."]

/-- The ways for two words to make a type, or the first two words of one. -/
def wordPairs : List (Str × Str) :=
  [(c!"unsigned", c!"short"), (c!"unsigned", c!"long"), (c!"long", c!"long"), (c!"unrestricted", c!"float"),
   (c!"unrestricted", c!"double")]

/-- The items before and after a separator that is left out without notice. -/
inductive MayLack : List Str → Str → List Str → Prop where
  /-- `stringifier; A b();` and `stringifier A b();` -/
  | stringifier {a b : List Str} : MayLack (a ++ [c!"stringifier"]) c!";" b
  /-- `attribute(); stringifier;`, an operation and a stringifier, and `attribute () stringifier;`, an attribute whose type is the
  empty union -/
  | name {a b : List Str} : MayLack a c!";" (c!"stringifier" :: c!";" :: b)
  /-- `enum A {"b",};` -/
  | last {a b : List Str} : MayLack a c!"," (c!"}" :: b)
  /-- `iterable<long, long>` and `iterable<long long>` -/
  | words {a b : List Str} {w w' : Str} (h : (w, w') ∈ wordPairs) : MayLack (a ++ [w]) c!"," (w' :: b)
  /-- `[A=()]` and `[A()]` -/
  | none {a b : List Str} : MayLack a c!"=" (c!"(" :: c!")" :: b)
  /-- `interface mixin : A {};` and `interface mixin A {};` -/
  | mixin {a b : List Str} : MayLack (a ++ [c!"interface", c!"mixin"]) c!":" b

/-- Two marks that are exchanged without notice, and the items after them. -/
inductive MayChange : Str → Str → List Str → Prop where
  /-- `A? b` and `A... b` -/
  | argument {b : List Str} : MayChange c!"?" c!"..." b
  /-- `[A, B]` and `[A=B]` -/
  | attribute {b : List Str} : MayChange c!"," c!"=" b
  /-- `attribute(); stringifier;` and `attribute ()? stringifier;` -/
  | name {b : List Str} : MayChange c!";" c!"?" (c!"stringifier" :: c!";" :: b)

end Verif.Spec
