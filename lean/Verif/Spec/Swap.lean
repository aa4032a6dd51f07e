import Verif.Spec.Items

/-!
# Neighbouring items that can change places
-/

namespace Verif.Spec

/-- The items before, the item that comes first in one text and second in the other, the mark that comes second in the one and first in
the other, and the items after. -/
inductive MaySwap : List Str → Str → Str → List Str → Prop where
  /-- `attribute () a; b();`, an attribute whose type is the empty union, and an operation, and `attribute (); a b();`, two operations -/
  | attribute {a b c : List Str} {w : Str} (h : Balanced c) (hw : IsWord w) :
      MaySwap (a ++ c!"attribute" :: c!"(" :: c ++ [c!")"]) w c!";" b
  /-- `long long? ();` and `long? long();` -/
  | nullable {a b : List Str} {w w' : Str} (h : (w, w') ∈ wordPairs) : MaySwap (a ++ [w]) w' c!"?" (c!"(" :: b)
  /-- `record<long long, long>` and `record<long, long long>` -/
  | words {a b : List Str} {w : Str} (h : (w, c!"long") ∈ wordPairs) : MaySwap (a ++ [w]) c!"long" c!"," (c!"long" :: b)

end Verif.Spec
