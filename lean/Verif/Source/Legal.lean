import Verif.Source.Traced
import Verif.Spec.Lexical

/-!
# What is always true of the nodes of results

The types of `/repo/src/*.rs` have values that no text is parsed to. These are the conditions that results meet.
-/

namespace Verif.Source

/-- The value of a field of a struct. `/repo/src/macros.rs:183-205`. -/
def Val.field : Val → Str → Val
  | .struct _ fs, x => Env.get fs x
  | _, _ => .unit

/-- Conditions on single values, each for one type: the regular expressions documented for names, strings and numbers
(`/repo/src/common.rs:79-89`, `/repo/src/literal.rs:4-138`), the default values and attributes of arguments (`/repo/src/argument.rs:15-22`), the
types of keys of records (`/repo/src/types.rs:127-132`), lists of `/repo/src/common.rs:68-74`. -/
structure Legal (u : Val) : Prop where
  /-- Names, without the underscore that may stand in front of them. -/
  name : ∀ x, u = .newtype c!"Identifier" (.str x) → Spec.Regex.word.Matches x
  string : ∀ x, u = .newtype c!"StringLit" (.str x) → '"' ∉ x
  dec : ∀ x, u = .newtype c!"DecLit" (.str x) → Spec.Regex.dec.Matches x
  hex : ∀ x, u = .newtype c!"HexLit" (.str x) → Spec.Regex.hex.Matches x
  oct : ∀ x, u = .newtype c!"OctLit" (.str x) → Spec.Regex.oct.Matches x
  float : ∀ x, u = .newtype c!"FloatValueLit" (.str x) → Spec.Regex.float.Matches x
  /-- Only optional arguments have a default value. -/
  default : ∀ fs, u = .struct c!"SingleArgument" fs → u.field c!"optional" = .none → u.field c!"default" = .none
  /-- Attributes in front of the type of an argument that is not optional are those of the argument. -/
  attributes : ∀ fs, u = .struct c!"SingleArgument" fs → u.field c!"optional" = .none → u.field c!"attributes" = .none →
    (u.field c!"type_").field c!"attributes" = .none
  /-- Keys of records that are strings are variants of their own. -/
  key : ∀ n v, u = .variant c!"RecordKeyType" c!"NonAny" (.variant c!"NonAnyType" n v) →
    n ≠ c!"ByteString" ∧ n ≠ c!"DOMString" ∧ n ≠ c!"USVString"
  nonempty : ∀ fs, u = .struct c!"PunctuatedNonEmpty" fs → u.field c!"list" ≠ .list []

end Verif.Source
