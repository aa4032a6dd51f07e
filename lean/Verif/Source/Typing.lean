import Verif.Source.Run

/-!
# The values of a Rust type

Which values a type has, by the `struct`, `enum` and `type` items of the expanded crate.
-/

namespace Verif.Source

/-- `v` is a value of the type `T`.
The types declared by `/repo/src/macros.rs:57-552` and `/repo/src/term.rs:1-53`. -/
inductive HasType (is : List Item) : RTy → Val → Prop where
  | unit : HasType is (.path0 c!"()") .unit
  | str (s : Str) : HasType is (.path0 c!"&str") (.str s)
  | char (c : Char) : HasType is (.path0 c!"char") (.char c)
  | bool (b : Bool) : HasType is (.path0 c!"bool") (.bool b)
  | none {T : RTy} : HasType is (.path1 c!"Option" T) .none
  | some {T : RTy} {v : Val} : HasType is T v → HasType is (.path1 c!"Option" T) (.some v)
  | list {T : RTy} {vs : List Val} : (∀ v ∈ vs, HasType is T v) → HasType is (.path1 c!"Vec" T) (.list vs)
  | box {T : RTy} {v : Val} : HasType is T v → HasType is (.path1 c!"Box" T) (.box v)
  | pair {T U : RTy} {v w : Val} : HasType is T v → HasType is U w → HasType is (.path2 c!"(,)" T U) (.pair v w)
  | triple {T U V : RTy} {v w x : Val} : HasType is T v → HasType is U w → HasType is V x →
      HasType is (.path3 c!"(,,)" T U V) (.triple v w x)
  /-- `pub struct n;` -/
  | token {n : Str} : .unit n ∈ is → HasType is (.path0 n) (.token n)
  /-- `pub struct n(pub T);` -/
  | newtype {n : Str} {T : RTy} {v : Val} : .tuple n [] T ∈ is → HasType is T v → HasType is (.path0 n) (.newtype n v)
  /-- `pub struct n<params> { pub field: type, .. }`: the fields in this order, each with a value of its type, where the
  parameters stand for the arguments of `T`. -/
  | struct {T : RTy} {ps : List Str} {fs : List (Str × RTy)} {vs : List (Str × Val)} : .struct T.name ps fs ∈ is →
      ps.length = T.args.length → vs.map Prod.fst = fs.map Prod.fst →
      (∀ p ∈ fs.zip vs, HasType is (p.1.2.subst (assign ps T.args)) p.2.2) → HasType is T (.struct T.name vs)
  /-- `pub enum n { variant(type), .. }` -/
  | variant {n x : Str} {vs : List (Str × RTy)} {T : RTy} {v : Val} : .enum n vs ∈ is → (x, T) ∈ vs →
      HasType is T v → HasType is (.path0 n) (.variant n x v)
  /-- `pub type n = T;` -/
  | alias {n : Str} {T : RTy} {v : Val} : .alias n T ∈ is → HasType is T v → HasType is (.path0 n) v

end Verif.Source
