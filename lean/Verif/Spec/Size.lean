import Verif.Source.Meaning

/-!
# The size and the depth of a Rust value
-/

namespace Verif.Source

mutual

/-- How many values a value consists of: the structs, variants, tuples, vectors, boxes, options, strings, flags and terminals in
it, and itself. -/
def Val.size : Val → Nat
  | .unit | .bool _ | .char _ | .str _ | .token _ | .none => 1
  | .pair a b => 1 + a.size + b.size
  | .triple a b c => 1 + a.size + b.size + c.size
  | .some v | .box v | .newtype _ v | .variant _ _ v => 1 + v.size
  | .list vs => 1 + Val.sizes vs
  | .struct _ fs => 1 + Val.fieldSizes fs

def Val.sizes : List Val → Nat
  | [] => 0
  | v :: vs => v.size + Val.sizes vs

def Val.fieldSizes : List (Str × Val) → Nat
  | [] => 0
  | (_, v) :: fs => v.size + Val.fieldSizes fs

end

mutual

/-- How deep values are inside one another. -/
def Val.depth : Val → Nat
  | .unit | .bool _ | .char _ | .str _ | .token _ | .none => 1
  | .pair a b => 1 + max a.depth b.depth
  | .triple a b c => 1 + max a.depth (max b.depth c.depth)
  | .some v | .box v | .newtype _ v | .variant _ _ v => 1 + v.depth
  | .list vs => 1 + Val.depths vs
  | .struct _ fs => 1 + Val.fieldDepths fs

def Val.depths : List Val → Nat
  | [] => 0
  | v :: vs => max v.depth (Val.depths vs)

def Val.fieldDepths : List (Str × Val) → Nat
  | [] => 0
  | (_, v) :: fs => max v.depth (Val.fieldDepths fs)

end

/-- A type in which no type of this name is written. -/
def RTy.Without (n : Str) : RTy → Prop
  | .path0 m => m ≠ n
  | .path1 m T => m ≠ n ∧ T.Without n
  | .path2 m T U => m ≠ n ∧ T.Without n ∧ U.Without n
  | .path3 m T U W => m ≠ n ∧ T.Without n ∧ U.Without n ∧ W.Without n

end Verif.Source
