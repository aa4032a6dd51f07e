import Verif.Spec.Rename
import Verif.Source.Table

/-!
# Texts whose items are of the same kinds

The items that carry a content are names, strings and the four kinds of numbers. Two texts are alike when they consist of
equally many items, and corresponding items are the same, or are of the same kind. `Q k a b` says which contents `a` and
`b` of kind `k` may stand for each other.
-/

namespace Verif.Spec
open Nom Source

inductive ItemKind where
  | name | string | decimal | hexadecimal | octal | float
  deriving DecidableEq

/-- The Rust type of the items of this kind. `/repo/src/common.rs:80-93`, `/repo/src/literal.rs:7-50,96-149`. -/
def ItemKind.type : ItemKind → Str
  | .name => c!"Identifier"
  | .string => c!"StringLit"
  | .decimal => c!"DecLit"
  | .hexadecimal => c!"HexLit"
  | .octal => c!"OctLit"
  | .float => c!"FloatValueLit"

/-- The item `w` is of kind `k` and has the content `v`. A keyword is no name, but it is one after an underscore. -/
def ItemKind.Content : ItemKind → Str → Str → Prop
  | .name, w, v => Regex.word.Matches v ∧ (w = v ∨ w = '_' :: v) ∧ w ∉ keywords
  | .string, w, v => '"' ∉ v ∧ w = '"' :: v ++ ['"']
  | .decimal, w, v => Regex.dec.Matches w ∧ v = w
  | .hexadecimal, w, v => Regex.hex.Matches w ∧ v = w
  | .octal, w, v => Regex.oct.Matches w ∧ v = w
  | .float, w, v => Regex.float.Matches w ∧ v = w

/-- The items are the same, or of the same kind. -/
inductive Alike (Q : ItemKind → Str → Str → Prop) : Str → Str → Prop where
  | same {w : Str} : Alike Q w w
  | content {k : ItemKind} {w w' v v' : Str} (h : k.Content w v) (h' : k.Content w' v') (hq : Q k v v') : Alike Q w w'

mutual

/-- The values are the same, except for the contents of names, strings and numbers. -/
inductive Like (Q : ItemKind → Str → Str → Prop) : Val → Val → Prop where
  | content {k : ItemKind} {v v' : Str} (h : Q k v v') : Like Q (.newtype k.type (.str v)) (.newtype k.type (.str v'))
  | unit : Like Q .unit .unit
  | bool {b : Bool} : Like Q (.bool b) (.bool b)
  | char {c : Char} : Like Q (.char c) (.char c)
  | str {s : Str} : Like Q (.str s) (.str s)
  | token {n : Str} : Like Q (.token n) (.token n)
  | none : Like Q .none .none
  | some {a a' : Val} (h : Like Q a a') : Like Q (.some a) (.some a')
  | box {a a' : Val} (h : Like Q a a') : Like Q (.box a) (.box a')
  | newtype {n : Str} {a a' : Val} (h : Like Q a a') : Like Q (.newtype n a) (.newtype n a')
  | variant {n x : Str} {a a' : Val} (h : Like Q a a') : Like Q (.variant n x a) (.variant n x a')
  | pair {a a' b b' : Val} (ha : Like Q a a') (hb : Like Q b b') : Like Q (.pair a b) (.pair a' b')
  | triple {a a' b b' c c' : Val} (ha : Like Q a a') (hb : Like Q b b') (hc : Like Q c c') :
      Like Q (.triple a b c) (.triple a' b' c')
  | list {vs vs' : List Val} (h : Likes Q vs vs') : Like Q (.list vs) (.list vs')
  | struct {n : Str} {fs fs' : List (Str × Val)} (h : LikeFields Q fs fs') : Like Q (.struct n fs) (.struct n fs')

inductive Likes (Q : ItemKind → Str → Str → Prop) : List Val → List Val → Prop where
  | nil : Likes Q [] []
  | cons {v v' : Val} {vs vs' : List Val} (h : Like Q v v') (hs : Likes Q vs vs') : Likes Q (v :: vs) (v' :: vs')

inductive LikeFields (Q : ItemKind → Str → Str → Prop) : List (Str × Val) → List (Str × Val) → Prop where
  | nil : LikeFields Q [] []
  | cons {x : Str} {v v' : Val} {fs fs' : List (Str × Val)} (h : Like Q v v') (hs : LikeFields Q fs fs') :
      LikeFields Q ((x, v) :: fs) ((x, v') :: fs')

end

/-- The texts consist of items that correspond. -/
def AlikeTexts (Q : ItemKind → Str → Str → Prop) (s t : Str) : Prop :=
  ∃ ls ls', Lexes s ls ∧ Lexes t ls' ∧ Pointwise (Alike Q) ls ls'

/-- The results on `s` and on `t` correspond: two successes with values that are alike and rests that are alike, where both
or none of them has read something, or two errors. -/
inductive AlikeResults (Q : ItemKind → Str → Str → Prop) (s t : Str) : Res Char Val → Res Char Val → Prop where
  | ok {r r' : Str} {v v' : Val} (hr : AlikeTexts Q r r') (hv : Like Q v v') (hs : r = s ↔ r' = t) :
      AlikeResults Q s t (.ok r v) (.ok r' v')
  | err {p p' : Str} {k k' : ErrorKind} : AlikeResults Q s t (.err (.error p k)) (.err (.error p' k'))

/-- The types whose parsers may stop inside of an item: after `1` in `1.5`, for example. -/
def innerTypes : List Str :=
  [c!"DecLit", c!"HexLit", c!"OctLit", c!"IntegerLit", c!"Minus", c!"Dot", c!"sp"]

/-- A type in which none of these is written. -/
def WholeItems : RTy → Prop
  | .path0 n => n ∉ innerTypes
  | .path1 n t => n ∉ innerTypes ∧ WholeItems t
  | .path2 n t u => n ∉ innerTypes ∧ WholeItems t ∧ WholeItems u
  | .path3 n t u v => n ∉ innerTypes ∧ WholeItems t ∧ WholeItems u ∧ WholeItems v

end Verif.Spec
