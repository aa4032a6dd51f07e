import Verif.Source.Traced

/-!
# Replacing a part of a value

What a user does who changes a node of a result: all fields are `pub`, `/repo/src/macros.rs:183-552`.
-/

namespace Verif.Source

/-- `Replaced u u' v v'`: `v'` is `v` with `u'` in the place of one occurrence of `u`. The values of `/repo/src/macros.rs:183-552`. -/
inductive Replaced (u u' : Val) : Val → Val → Prop where
  | here : Replaced u u' u u'
  | pair1 {a a' b : Val} : Replaced u u' a a' → Replaced u u' (.pair a b) (.pair a' b)
  | pair2 {a b b' : Val} : Replaced u u' b b' → Replaced u u' (.pair a b) (.pair a b')
  | triple1 {a a' b c : Val} : Replaced u u' a a' → Replaced u u' (.triple a b c) (.triple a' b c)
  | triple2 {a b b' c : Val} : Replaced u u' b b' → Replaced u u' (.triple a b c) (.triple a b' c)
  | triple3 {a b c c' : Val} : Replaced u u' c c' → Replaced u u' (.triple a b c) (.triple a b c')
  | some {v v' : Val} : Replaced u u' v v' → Replaced u u' (.some v) (.some v')
  | list {v v' : Val} {vs ws : List Val} : Replaced u u' v v' → Replaced u u' (.list (vs ++ v :: ws)) (.list (vs ++ v' :: ws))
  | box {v v' : Val} : Replaced u u' v v' → Replaced u u' (.box v) (.box v')
  | struct {n x : Str} {v v' : Val} {vs ws : List (Str × Val)} : Replaced u u' v v' →
      Replaced u u' (.struct n (vs ++ (x, v) :: ws)) (.struct n (vs ++ (x, v') :: ws))
  | newtype {n : Str} {v v' : Val} : Replaced u u' v v' → Replaced u u' (.newtype n v) (.newtype n v')
  | variant {n x : Str} {v v' : Val} : Replaced u u' v v' → Replaced u u' (.variant n x v) (.variant n x v')

/-- `v'` is `v` with one list in it, at any depth, replaced by a list of its elements, of any length and in any order. The values of
`/repo/src/macros.rs:183-552`, lists of `/repo/src/common.rs:43-74`. -/
inductive Rearranged : Val → Val → Prop where
  | here {vs ws : List Val} : (∀ w ∈ ws, w ∈ vs) → Rearranged (.list vs) (.list ws)
  | pair1 {a a' b : Val} : Rearranged a a' → Rearranged (.pair a b) (.pair a' b)
  | pair2 {a b b' : Val} : Rearranged b b' → Rearranged (.pair a b) (.pair a b')
  | triple1 {a a' b c : Val} : Rearranged a a' → Rearranged (.triple a b c) (.triple a' b c)
  | triple2 {a b b' c : Val} : Rearranged b b' → Rearranged (.triple a b c) (.triple a b' c)
  | triple3 {a b c c' : Val} : Rearranged c c' → Rearranged (.triple a b c) (.triple a b c')
  | some {v v' : Val} : Rearranged v v' → Rearranged (.some v) (.some v')
  | list {v v' : Val} {vs ws : List Val} : Rearranged v v' → Rearranged (.list (vs ++ v :: ws)) (.list (vs ++ v' :: ws))
  | box {v v' : Val} : Rearranged v v' → Rearranged (.box v) (.box v')
  | struct {n x : Str} {v v' : Val} {vs ws : List (Str × Val)} : Rearranged v v' →
      Rearranged (.struct n (vs ++ (x, v) :: ws)) (.struct n (vs ++ (x, v') :: ws))
  | newtype {n : Str} {v v' : Val} : Rearranged v v' → Rearranged (.newtype n v) (.newtype n v')
  | variant {n x : Str} {v v' : Val} : Rearranged v v' → Rearranged (.variant n x v) (.variant n x v')

/-- `v'` is `v` with one `Some` in it, at any depth, replaced by `None`, other than the fields `optional` and `attributes` of an argument. The
values of `/repo/src/macros.rs:183-552`, arguments of `/repo/src/argument.rs:15-22`. -/
inductive Cleared : Val → Val → Prop where
  | here {v : Val} : Cleared (.some v) .none
  | pair1 {a a' b : Val} : Cleared a a' → Cleared (.pair a b) (.pair a' b)
  | pair2 {a b b' : Val} : Cleared b b' → Cleared (.pair a b) (.pair a b')
  | triple1 {a a' b c : Val} : Cleared a a' → Cleared (.triple a b c) (.triple a' b c)
  | triple2 {a b b' c : Val} : Cleared b b' → Cleared (.triple a b c) (.triple a b' c)
  | triple3 {a b c c' : Val} : Cleared c c' → Cleared (.triple a b c) (.triple a b c')
  | some {v v' : Val} : Cleared v v' → Cleared (.some v) (.some v')
  | list {v v' : Val} {vs ws : List Val} : Cleared v v' → Cleared (.list (vs ++ v :: ws)) (.list (vs ++ v' :: ws))
  | box {v v' : Val} : Cleared v v' → Cleared (.box v) (.box v')
  | struct {n x : Str} {v v' : Val} {vs ws : List (Str × Val)} : Cleared v v' →
      (n = c!"SingleArgument" → x = c!"optional" ∨ x = c!"attributes" → v' ≠ .none) →
      Cleared (.struct n (vs ++ (x, v) :: ws)) (.struct n (vs ++ (x, v') :: ws))
  | newtype {n : Str} {v v' : Val} : Cleared v v' → Cleared (.newtype n v) (.newtype n v')
  | variant {n x : Str} {v v' : Val} : Cleared v v' → Cleared (.variant n x v) (.variant n x v')

end Verif.Source
