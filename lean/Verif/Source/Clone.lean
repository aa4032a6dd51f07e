import Verif.Source.Derive

/-!
# Copies and default values

What `#[derive(Clone, Default)]` makes, for the types of the expanded crate.
-/

namespace Verif.Source

mutual

/-- `Clone::clone`: a value made of copies of the components.
`#[derive(Clone)]` in `/repo/src/macros.rs:191,232,411` and `/repo/src/term.rs:5,42`, and `Clone` of the types of the standard
library. -/
def Val.clone : Val → Val
  | .unit => .unit
  | .bool a => .bool a
  | .char a => .char a
  | .str a => .str a
  | .token n => .token n
  | .pair a b => .pair a.clone b.clone
  | .triple a b c => .triple a.clone b.clone c.clone
  | .none => .none
  | .some a => .some a.clone
  | .list as => .list (cloneList as)
  | .box a => .box a.clone
  | .struct n as => .struct n (cloneFields as)
  | .newtype n a => .newtype n a.clone
  | .variant n x a => .variant n x a.clone

/-- The elements of a `Vec`, `/repo/src/common.rs:63,69`. -/
def cloneList : List Val → List Val
  | [] => []
  | a :: as => a.clone :: cloneList as

/-- The fields of a struct, `/repo/src/macros.rs:231-235`. -/
def cloneFields : List (Str × Val) → List (Str × Val)
  | [] => []
  | (x, a) :: as => (x, a.clone) :: cloneFields as

end

/-- `Default::default()` of the type `T` is `v`. A derived implementation makes the default values of the components. No enum
of the crate derives `Default`.
`#[derive(Default)]` in `/repo/src/term.rs:5,42`, `/repo/src/common.rs:30,38,46,54`, `/repo/src/literal.rs:56,62` and
`/repo/src/interface.rs:113`, and `Default` of the types of the standard library. -/
inductive DefaultOf (is : List Item) : RTy → Val → Prop where
  | unit : DefaultOf is (.path0 c!"()") .unit
  | str : DefaultOf is (.path0 c!"&str") (.str [])
  | char : DefaultOf is (.path0 c!"char") (.char '\x00')
  | bool : DefaultOf is (.path0 c!"bool") (.bool false)
  | option {T : RTy} : DefaultOf is (.path1 c!"Option" T) .none
  | vec {T : RTy} : DefaultOf is (.path1 c!"Vec" T) (.list [])
  | box {T : RTy} {v : Val} : DefaultOf is T v → DefaultOf is (.path1 c!"Box" T) (.box v)
  | pair {T U : RTy} {v w : Val} : DefaultOf is T v → DefaultOf is U w → DefaultOf is (.path2 c!"(,)" T U) (.pair v w)
  | triple {T U V : RTy} {v w x : Val} : DefaultOf is T v → DefaultOf is U w → DefaultOf is V x →
      DefaultOf is (.path3 c!"(,,)" T U V) (.triple v w x)
  | token {n : Str} : Derives is c!"Default" n → .unit n ∈ is → DefaultOf is (.path0 n) (.token n)
  | newtype {n : Str} {T : RTy} {v : Val} : Derives is c!"Default" n → .tuple n [] T ∈ is → DefaultOf is T v →
      DefaultOf is (.path0 n) (.newtype n v)
  | struct {T : RTy} {ps : List Str} {fs : List (Str × RTy)} {vs : List (Str × Val)} : Derives is c!"Default" T.name →
      .struct T.name ps fs ∈ is → ps.length = T.args.length → vs.map Prod.fst = fs.map Prod.fst →
      (∀ p ∈ fs.zip vs, DefaultOf is (p.1.2.subst (assign ps T.args)) p.2.2) → DefaultOf is T (.struct T.name vs)
  | alias {n : Str} {T : RTy} {v : Val} : .alias n T ∈ is → DefaultOf is T v → DefaultOf is (.path0 n) v

end Verif.Source
