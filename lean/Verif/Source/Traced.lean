import Verif.Source.Typing

/-!
# Values that were read from a place in a text

A place is given by what follows its beginning and what follows its end: `s` and `r` with `r` a suffix of `s`.
-/

namespace Verif.Source

/-- The string stands between the beginnings of `s` and of `r`. -/
def Contains (s r x : Str) : Prop := ∃ a b, s = a ++ (x ++ (b ++ r))

/-- `v` is a value of the type `T`, as in `HasType`, and it is made of what was read between the beginnings of `s` and of `r`: each
string in it stands there; each struct, each variant of an enum and each value of a type with a `type` alias has a place of its own
there, where `Q` says that the parser of its type returned it, and its parts were read from there.
The types declared by `/repo/src/macros.rs:57-552` and `/repo/src/term.rs:1-53`. -/
inductive Traced (is : List Item) (Q : RTy → Str → Str → Val → Prop) : Str → Str → RTy → Val → Prop where
  | unit {s r : Str} : Traced is Q s r (.path0 c!"()") .unit
  | str {s r x : Str} : Contains s r x → Traced is Q s r (.path0 c!"&str") (.str x)
  | char {s r : Str} (c : Char) : Traced is Q s r (.path0 c!"char") (.char c)
  | bool {s r : Str} (b : Bool) : Traced is Q s r (.path0 c!"bool") (.bool b)
  | none {s r : Str} {T : RTy} : Traced is Q s r (.path1 c!"Option" T) .none
  | some {s r : Str} {T : RTy} {v : Val} : Traced is Q s r T v → Traced is Q s r (.path1 c!"Option" T) (.some v)
  | list {s r : Str} {T : RTy} {vs : List Val} : (∀ v ∈ vs, Traced is Q s r T v) → Traced is Q s r (.path1 c!"Vec" T) (.list vs)
  | box {s r : Str} {T : RTy} {v : Val} : Traced is Q s r T v → Traced is Q s r (.path1 c!"Box" T) (.box v)
  | pair {s r : Str} {T U : RTy} {v w : Val} : Traced is Q s r T v → Traced is Q s r U w →
      Traced is Q s r (.path2 c!"(,)" T U) (.pair v w)
  | triple {s r : Str} {T U V : RTy} {v w x : Val} : Traced is Q s r T v → Traced is Q s r U w → Traced is Q s r V x →
      Traced is Q s r (.path3 c!"(,,)" T U V) (.triple v w x)
  | token {s r n : Str} : .unit n ∈ is → Traced is Q s r (.path0 n) (.token n)
  | newtype {s r s' r' n : Str} {T : RTy} {v : Val} : .tuple n [] T ∈ is → s' <:+ s → r <:+ r' → r' <:+ s' →
      Q (.path0 n) s' r' (.newtype n v) → Traced is Q s' r' T v → Traced is Q s r (.path0 n) (.newtype n v)
  | struct {s r s' r' : Str} {T : RTy} {ps : List Str} {fs : List (Str × RTy)} {vs : List (Str × Val)} : .struct T.name ps fs ∈ is →
      ps.length = T.args.length → vs.map Prod.fst = fs.map Prod.fst → s' <:+ s → r <:+ r' → r' <:+ s' →
      Q T s' r' (.struct T.name vs) →
      (∀ p ∈ fs.zip vs, Traced is Q s' r' (p.1.2.subst (assign ps T.args)) p.2.2) → Traced is Q s r T (.struct T.name vs)
  | variant {s r s' r' n x : Str} {vs : List (Str × RTy)} {T : RTy} {v : Val} : .enum n vs ∈ is → (x, T) ∈ vs →
      s' <:+ s → r <:+ r' → r' <:+ s' → Q (.path0 n) s' r' (.variant n x v) → Traced is Q s' r' T v →
      Traced is Q s r (.path0 n) (.variant n x v)
  | alias {s r s' r' n : Str} {T : RTy} {v : Val} : .alias n T ∈ is → s' <:+ s → r <:+ r' → r' <:+ s' →
      Q (.path0 n) s' r' v → Traced is Q s' r' T v → Traced is Q s r (.path0 n) v

/-- `u` is the value `v`, or a part of it, or a part of a part, and so on.
The parts of the values that `/repo/src/macros.rs:57-552` and `/repo/src/term.rs:1-53` declare. -/
inductive Part (u : Val) : Val → Prop where
  | refl : Part u u
  | pair1 {a b : Val} : Part u a → Part u (.pair a b)
  | pair2 {a b : Val} : Part u b → Part u (.pair a b)
  | triple1 {a b c : Val} : Part u a → Part u (.triple a b c)
  | triple2 {a b c : Val} : Part u b → Part u (.triple a b c)
  | triple3 {a b c : Val} : Part u c → Part u (.triple a b c)
  | some {v : Val} : Part u v → Part u (.some v)
  | list {v : Val} {vs : List Val} : v ∈ vs → Part u v → Part u (.list vs)
  | box {v : Val} : Part u v → Part u (.box v)
  | struct {n x : Str} {v : Val} {vs : List (Str × Val)} : (x, v) ∈ vs → Part u v → Part u (.struct n vs)
  | newtype {n : Str} {v : Val} : Part u v → Part u (.newtype n v)
  | variant {n x : Str} {v : Val} : Part u v → Part u (.variant n x v)

/-- The value of a struct with fields or of an enum. `/repo/src/macros.rs:183-552`. -/
def Val.isNode : Val → Bool
  | .struct _ _ | .newtype _ _ | .variant _ _ _ => true
  | _ => false

/-- The name of the type of such a value. `/repo/src/macros.rs:183-552`. -/
def Val.typeName : Val → Str
  | .struct n _ | .newtype n _ | .variant n _ _ => n
  | _ => []

end Verif.Source
