import Verif.Spec.Collect
import Verif.Spec.Words

/-!
# Where the items of a text are in the result
-/

namespace Verif.Spec

/-- Keywords, types that are words, and punctuation marks: what has a meaning of its own and no contents. -/
def vocabulary : List Str := grammarWords ++ typeWords ++ [c!"undefined", c!"-Infinity"] ++ punctuation

/-- The item `w` is a name, string or number with the contents `v`. -/
inductive Written (v : Str) : Str → Prop where
  | name (h : Regex.word.Matches v) : Written v v
  | escaped (h : Regex.word.Matches v) : Written v ('_' :: v)
  | string (h : '"' ∉ v) : Written v ('"' :: v ++ ['"'])
  | number (h : Numeral v) : Written v v

/-- The items `ls` have the contents `vs`, one by one. -/
inductive AllWritten : List Str → List Str → Prop where
  | nil : AllWritten [] []
  | cons {vs ls : List Str} {v w : Str} (hw : Written v w) (h : AllWritten vs ls) : AllWritten (v :: vs) (w :: ls)

/-- Each item of `ls` is a word of the vocabulary or has the contents that come next in `vs`, and nothing else is in `vs`. -/
inductive Accounts : List Str → List Str → Prop where
  | nil : Accounts [] []
  | word {vs ls : List Str} {w : Str} (hw : w ∈ vocabulary) (h : Accounts vs ls) : Accounts vs (w :: ls)
  | contents {vs ls : List Str} {v w : Str} (hw : Written v w) (h : Accounts vs ls) : Accounts (v :: vs) (w :: ls)

end Verif.Spec
