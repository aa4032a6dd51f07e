import Verif.Spec.Lexing
import Verif.Spec.Map

/-!
# Renaming identifiers in a text
-/

namespace Verif.Spec

/-- The words that have a meaning in the language. -/
def keywords : List Str :=
  [c!"or", c!"optional", c!"async", c!"attribute", c!"callback", c!"const", c!"deleter", c!"dictionary", c!"enum",
   c!"getter", c!"includes", c!"inherit", c!"interface", c!"iterable", c!"maplike", c!"namespace", c!"partial",
   c!"required", c!"setlike", c!"setter", c!"static", c!"stringifier", c!"typedef", c!"unrestricted", c!"symbol",
   c!"ByteString", c!"DOMString", c!"FrozenArray", c!"Infinity", c!"NaN", c!"USVString", c!"any", c!"boolean",
   c!"byte", c!"double", c!"false", c!"float", c!"long", c!"null", c!"object", c!"octet", c!"sequence", c!"short",
   c!"true", c!"unsigned", c!"undefined", c!"record", c!"ArrayBuffer", c!"DataView", c!"Int8Array", c!"Int16Array",
   c!"Int32Array", c!"Uint8Array", c!"Uint16Array", c!"Uint32Array", c!"Uint8ClampedArray", c!"Float32Array",
   c!"Float64Array", c!"ArrayBufferView", c!"BufferSource", c!"Promise", c!"Error", c!"readonly", c!"mixin",
   c!"implements", c!"legacycaller", c!"constructor"]

/-- A word without a meaning of its own. -/
def Free (i : Str) : Prop := Regex.word.Matches i ∧ i ∉ keywords

/-- `g` renames free words to free words, and keeps the keywords. -/
def Renaming (g : Str → Str) : Prop := (∀ i, Free i → Free (g i)) ∧ ∀ k ∈ keywords, g k = k

/-- The item `w'` is the item `w`, or they are a free word and its new name, each possibly with an underscore. -/
inductive Renamed (g : Str → Str) : Str → Str → Prop where
  | name {i w w' : Str} (hi : Free i) (hw : w ∈ [i, '_' :: i]) (hw' : w' ∈ [g i, '_' :: g i]) : Renamed g w w'
  | same {w : Str} (h : ∀ i, Free i → w ∉ [i, '_' :: i]) : Renamed g w w

/-- The lists have the same length and corresponding elements are related. -/
inductive Pointwise (R : Str → Str → Prop) : List Str → List Str → Prop where
  | nil : Pointwise R [] []
  | cons {w w' : Str} {ls ls' : List Str} (h : R w w') (hs : Pointwise R ls ls') : Pointwise R (w :: ls) (w' :: ls')

end Verif.Spec
