import Verif.Source.Typing
import Verif.Spec.Bytes

/-!
# Derived traits

What `#[derive(PartialEq, Eq, PartialOrd, Ord)]` makes, for the types of the expanded crate, and which types
implement which traits.
-/

namespace Verif.Source

/-- `Ord::cmp` of numbers: of code points, and of the places of variants. Used by `#[derive(..)]` in `/repo/src/macros.rs:191,232,411` and `/repo/src/term.rs:5,42`. -/
def cmpNat (a b : Nat) : Ordering := if a < b then .lt else if b < a then .gt else .eq

/-- Lists in the order of a dictionary.
`Ord::cmp` of `&str` and `Vec<T>` in the types of `/repo/src/macros.rs:57-552`. -/
def dictionary : List Nat → List Nat → Ordering
  | [], [] => .eq
  | [], _ :: _ => .lt
  | _ :: _, [] => .gt
  | a :: as, b :: bs => (cmpNat a b).then (dictionary as bs)

/-- `self.a.cmp(&other.a).then_with(|| self.b.cmp(&other.b))`.
`#[derive(..)]` in `/repo/src/macros.rs:191,232,411` and `/repo/src/term.rs:5,42`. -/
def andThen (x y : Option Ordering) : Option Ordering :=
  match x with
  | some .eq => y
  | x => x

/-- The place of a variant in the declaration of its enum.
The discriminant, by which derived `Ord` compares; `/repo/src/macros.rs:411-414`. -/
def place (x : Str) : List (Str × RTy) → Option Nat
  | [] => none
  | (y, _) :: vs => if y = x then some 0 else (place x vs).map (· + 1)

/-- The variants of the enum `n`, `/repo/src/macros.rs:411-414`. -/
def enumOf (n : Str) : List Item → Option (List (Str × RTy))
  | [] => none
  | .enum m vs :: is => if m = n then some vs else enumOf n is
  | _ :: is => enumOf n is

mutual

/-- `Ord::cmp`. Structs and tuples are compared field by field, in the order of their declaration; variants by their
place in the enum, then by what they contain; `None` is less than `Some`; `Vec` and `str` (its bytes) are compared like
words in a dictionary. Rust does not compare values of different types, here the result is `none`.
`#[derive(..)]` in `/repo/src/macros.rs:191,232,411` and `/repo/src/term.rs:5,42`. -/
def Val.cmp (is : List Item) : Val → Val → Option Ordering
  | .unit, .unit => some .eq
  | .bool a, .bool b => some (cmpNat a.toNat b.toNat)
  | .char a, .char b => some (cmpNat a.toNat b.toNat)
  | .str a, .str b => some (dictionary ((Spec.utf8 a).map (·.toNat)) ((Spec.utf8 b).map (·.toNat)))
  | .token n, .token m => if n = m then some .eq else none
  | .pair a b, .pair a' b' => andThen (a.cmp is a') (b.cmp is b')
  | .triple a b c, .triple a' b' c' => andThen (a.cmp is a') (andThen (b.cmp is b') (c.cmp is c'))
  | .none, .none => some .eq
  | .none, .some _ => some .lt
  | .some _, .none => some .gt
  | .some a, .some b => a.cmp is b
  | .list as, .list bs => cmpList is as bs
  | .box a, .box b => a.cmp is b
  | .struct n as, .struct m bs => if n = m then cmpFields is as bs else none
  | .newtype n a, .newtype m b => if n = m then a.cmp is b else none
  | .variant n x a, .variant m y b =>
    if n = m then
      match enumOf n is with
      | some vs =>
        match place x vs, place y vs with
        | some i, some j => if i = j then a.cmp is b else some (cmpNat i j)
        | _, _ => none
      | none => none
    else none
  | _, _ => none

/-- `Vec::cmp`, for the lists of `/repo/src/common.rs:63,69`. -/
def cmpList (is : List Item) : List Val → List Val → Option Ordering
  | [], [] => some .eq
  | [], _ :: _ => some .lt
  | _ :: _, [] => some .gt
  | a :: as, b :: bs => andThen (a.cmp is b) (cmpList is as bs)

/-- The fields in the order of the declaration, `/repo/src/macros.rs:231-235`. -/
def cmpFields (is : List Item) : List (Str × Val) → List (Str × Val) → Option Ordering
  | [], [] => some .eq
  | (x, a) :: as, (y, b) :: bs => if x = y then andThen (a.cmp is b) (cmpFields is as bs) else none
  | _, _ => none

end

/-- `&&`. `#[derive(..)]` in `/repo/src/macros.rs:191,232,411` and `/repo/src/term.rs:5,42`. -/
def andAlso (x y : Option Bool) : Option Bool :=
  match x with
  | some true => y
  | x => x

mutual

/-- `PartialEq::eq`: the same variant, and equal fields. `none` for values of different types.
`#[derive(..)]` in `/repo/src/macros.rs:191,232,411` and `/repo/src/term.rs:5,42`. -/
def Val.eq : Val → Val → Option Bool
  | .unit, .unit => some true
  | .bool a, .bool b => some (a == b)
  | .char a, .char b => some (a == b)
  | .str a, .str b => some (Spec.utf8 a == Spec.utf8 b)
  | .token n, .token m => if n = m then some true else none
  | .pair a b, .pair a' b' => andAlso (a.eq a') (b.eq b')
  | .triple a b c, .triple a' b' c' => andAlso (a.eq a') (andAlso (b.eq b') (c.eq c'))
  | .none, .none => some true
  | .none, .some _ => some false
  | .some _, .none => some false
  | .some a, .some b => a.eq b
  | .list as, .list bs => eqList as bs
  | .box a, .box b => a.eq b
  | .struct n as, .struct m bs => if n = m then eqFields as bs else none
  | .newtype n a, .newtype m b => if n = m then a.eq b else none
  | .variant n x a, .variant m y b => if n = m then (if x = y then a.eq b else some false) else none
  | _, _ => none

/-- `Vec::eq`, for the lists of `/repo/src/common.rs:63,69`. -/
def eqList : List Val → List Val → Option Bool
  | [], [] => some true
  | [], _ :: _ => some false
  | _ :: _, [] => some false
  | a :: as, b :: bs => andAlso (a.eq b) (eqList as bs)

/-- The fields in the order of the declaration, `/repo/src/macros.rs:231-235`. -/
def eqFields : List (Str × Val) → List (Str × Val) → Option Bool
  | [], [] => some true
  | (x, a) :: as, (y, b) :: bs => if x = y then andAlso (a.eq b) (eqFields as bs) else none
  | _, _ => none

end

/-! ## Traits -/

/-- The traits that can be derived.
All of `/repo/src/macros.rs:191,232,411`, `/repo/src/term.rs:5,42` and `/repo/src/common.rs:30` are among them. -/
def derivable : List Str :=
  [c!"Clone", c!"Copy", c!"Debug", c!"Default", c!"Eq", c!"Hash", c!"Ord", c!"PartialEq", c!"PartialOrd"]

/-- The trait `tr` is among the derived traits of the type `n`.
`/repo/src/macros.rs:191,232,411`, `/repo/src/term.rs:5,42`, `/repo/src/common.rs:30,79`. -/
def Derives (is : List Item) (tr n : Str) : Prop := ∃ trs, .derive n trs ∈ is ∧ tr ∈ trs

/-- The type `T` implements the derivable trait `tr`. For the types of the standard library, this is from its
documentation. A derived implementation for a type with parameters is for the arguments that implement the trait.
`/repo/src/macros.rs:191,232,411`, `/repo/src/term.rs:5,42`. -/
inductive Implements (is : List Item) (tr : Str) : RTy → Prop where
  | std {n : Str} : n ∈ [c!"()", c!"&str", c!"char", c!"bool"] → Implements is tr (.path0 n)
  | option {T : RTy} : Implements is tr T → Implements is tr (.path1 c!"Option" T)
  | optionDefault {T : RTy} : tr = c!"Default" → Implements is tr (.path1 c!"Option" T)
  | vec {T : RTy} : tr ≠ c!"Copy" → Implements is tr T → Implements is tr (.path1 c!"Vec" T)
  | vecDefault {T : RTy} : tr = c!"Default" → Implements is tr (.path1 c!"Vec" T)
  | box {T : RTy} : tr ≠ c!"Copy" → Implements is tr T → Implements is tr (.path1 c!"Box" T)
  | pair {T U : RTy} : Implements is tr T → Implements is tr U → Implements is tr (.path2 c!"(,)" T U)
  | triple {T U V : RTy} : Implements is tr T → Implements is tr U → Implements is tr V →
      Implements is tr (.path3 c!"(,,)" T U V)
  | derived {T : RTy} : Derives is tr T.name → (∀ U ∈ T.args, Implements is tr U) → Implements is tr T
  | alias {n : Str} {T : RTy} : .alias n T ∈ is → Implements is tr T → Implements is tr (.path0 n)

/-- The parameters of a declared type and the types of its components. `/repo/src/macros.rs:183-235,400-414`. -/
inductive Components (is : List Item) : Str → List Str → List RTy → Prop where
  | struct {n : Str} {ps : List Str} {fs : List (Str × RTy)} : .struct n ps fs ∈ is → Components is n ps (fs.map Prod.snd)
  | tuple {n : Str} {ps : List Str} {t : RTy} : .tuple n ps t ∈ is → Components is n ps [t]
  | unit {n : Str} : .unit n ∈ is → Components is n [] []
  | enum {n : Str} {vs : List (Str × RTy)} : .enum n vs ∈ is → Components is n [] (vs.map Prod.snd)

/-- The traits that a trait requires.
As the standard library declares them; for `#[derive(..)]` in `/repo/src/macros.rs:191,232,411` and `/repo/src/term.rs:5,42`. -/
def supertraits (tr : Str) : List Str :=
  if tr = c!"Copy" then [c!"Clone"] else
  if tr = c!"Eq" then [c!"PartialEq"] else
  if tr = c!"PartialOrd" then [c!"PartialEq"] else
  if tr = c!"Ord" then [c!"Eq", c!"PartialOrd"] else []

end Verif.Source
