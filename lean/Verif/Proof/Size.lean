import Verif.Spec.Size
import Verif.Spec.Grammar
import Verif.Source.Value

/-! # The size of the result and the number of lexemes -/

namespace Verif.Sizes
open Spec Source

/-- All spellings have at least `n / 10` lexemes. -/
def Heavy (n : Nat) (A : Lang) : Prop := ∀ ls, A ls → n ≤ 10 * ls.length

section
variable {m n : Nat} {A B : Lang}

theorem Heavy.mono (h : Heavy n A) (hm : m ≤ n) : Heavy m A := fun ls hl => Nat.le_trans hm (h ls hl)

theorem Heavy.zero : Heavy 0 A := fun _ _ => Nat.zero_le _

theorem Heavy.seq (h : Heavy m A) (h' : Heavy n B) : Heavy (m + n) (A ⨾ B) := by
  rintro _ ⟨x, y, rfl, hx, hy⟩
  have := h x hx
  have := h' y hy
  simp
  omega

theorem Heavy.tok (w : Str) : Heavy 10 (tok w) := by rintro _ rfl; simp

theorem Heavy.avoiding (ps : List (List Str)) (h : Heavy n A) : Heavy n (avoiding ps A) := fun ls hl => h ls hl.1

theorem Heavy.name (i : Str) : Heavy 10 (name i) := by rintro _ ⟨-, rfl | rfl⟩ <;> simp

theorem Heavy.typeName (ws : List Str) (i : Str) : Heavy 10 (typeName ws i) := by rintro _ ⟨-, ⟨rfl, -⟩ | rfl⟩ <;> simp

theorem Heavy.string (v : Str) : Heavy 10 (string v) := by rintro _ ⟨-, rfl⟩; simp

theorem Heavy.literal (re : Regex) (v : Str) : Heavy 10 (literal re v) := by rintro _ ⟨-, rfl⟩; simp

theorem Heavy.flag (v : Val) (hv : v.size ≤ 10) (b : Bool) (w : Str) : Heavy ((flagVal v b).size - 1) (optTok b w) := by
  cases b
  · exact .zero
  · exact (Heavy.tok w).mono (by simp [flagVal, Val.size] <;> omega)

theorem Heavy.named (i : Str) (h : Heavy n A) : Heavy (n + 10) (named A i) := by
  rintro _ ⟨x, y, rfl, hx, hy, -⟩
  have := h x hx
  have := Heavy.name i y hy
  simp
  omega

theorem Heavy.parens (h : Heavy n A) : Heavy (n + 20) (parens A) := ((Heavy.tok _).seq (h.seq (.tok _))).mono (by omega)
theorem Heavy.brackets (h : Heavy n A) : Heavy (n + 20) (brackets A) := ((Heavy.tok _).seq (h.seq (.tok _))).mono (by omega)
theorem Heavy.braces (h : Heavy n A) : Heavy (n + 20) (braces A) := ((Heavy.tok _).seq (h.seq (.tok _))).mono (by omega)
theorem Heavy.angles (h : Heavy n A) : Heavy (n + 20) (angles A) := ((Heavy.tok _).seq (h.seq (.tok _))).mono (by omega)

theorem Heavy.concat {α : Type} {L : α → Lang} {f : α → Val} (h : ∀ a, Heavy (f a).size (L a)) (as : List α) :
    Heavy (Val.sizes (as.map f)) (concat (as.map L)) := by
  induction as with
  | nil => exact .zero
  | cons a as ih => exact (h a).seq ih

/-- the languages and values in the same order -/
inductive Heavies : List Lang → List Val → Prop where
  | nil : Heavies [] []
  | cons {A : Lang} {As : List Lang} {v : Val} {vs : List Val} : Heavy v.size A → Heavies As vs → Heavies (A :: As) (v :: vs)

theorem Heavies.map {α : Type} {L : α → Lang} {f : α → Val} (h : ∀ a, Heavy (f a).size (L a)) (as : List α) :
    Heavies (as.map L) (as.map f) := by
  induction as with
  | nil => exact .nil
  | cons a as ih => exact .cons (h a) ih

theorem Heavies.sepBy {sep : Lang} {As : List Lang} {vs : List Val} (h : Heavies As vs) : Heavy (Val.sizes vs) (sepBy sep As) := by
  induction h with
  | nil => exact .zero
  | @cons A As v vs h1 h2 ih =>
    cases h2 with
    | nil => exact h1.mono (by simp [Val.sizes])
    | cons h3 h4 => exact (h1.seq (Heavy.zero.seq ih)).mono (by simp [Val.sizes])

end

theorem size_pos (v : Val) : 1 ≤ v.size := by
  cases v <;> simp [Val.size] <;> omega

@[simp] theorem size_kw (k : Kw) : (kwVal k).size = 1 := by simp [kwVal, Val.size]
@[simp] theorem size_punct (p : Punct) : (punctVal p).size = 1 := by simp [punctVal, Val.size]
@[simp] theorem size_ident (i : Str) : (identVal i).size = 2 := by simp [identVal, Val.size]
@[simp] theorem size_string (i : Str) : (stringVal i).size = 2 := by simp [stringVal, Val.size]
@[simp] theorem size_paren (v : Val) : (parenVal v).size = v.size + 3 := by
  simp [parenVal, Val.size, Val.fieldSizes]; omega
@[simp] theorem size_bracket (v : Val) : (bracketVal v).size = v.size + 3 := by
  simp [bracketVal, Val.size, Val.fieldSizes]; omega
@[simp] theorem size_brace (v : Val) : (braceVal v).size = v.size + 3 := by
  simp [braceVal, Val.size, Val.fieldSizes]; omega
@[simp] theorem size_generics (v : Val) : (genericsVal v).size = v.size + 3 := by
  simp [genericsVal, Val.size, Val.fieldSizes]; omega
@[simp] theorem size_punctuated (s : Val) (vs : List Val) : (punctuatedVal s vs).size = Val.sizes vs + s.size + 2 := by
  simp [punctuatedVal, Val.size, Val.fieldSizes]; omega
@[simp] theorem size_punctuatedNonEmpty (s : Val) (vs : List Val) :
    (punctuatedNonEmptyVal s vs).size = Val.sizes vs + s.size + 2 := by
  simp [punctuatedNonEmptyVal, Val.size, Val.fieldSizes]; omega
@[simp] theorem size_null (v : Val) (q : Bool) : (nullVal v q).size = v.size + (flagVal (punctVal .qMark) q).size + 1 := by
  simp [nullVal, Val.size, Val.fieldSizes]; omega
@[simp] theorem size_variant (n m : Str) (v : Val) : (Val.variant n m v).size = v.size + 1 := by simp [Val.size]; omega
@[simp] theorem size_newtype (n : Str) (v : Val) : (Val.newtype n v).size = v.size + 1 := by simp [Val.size]; omega
@[simp] theorem size_some (v : Val) : (Val.some v).size = v.size + 1 := by simp [Val.size]; omega
@[simp] theorem size_box (v : Val) : (Val.box v).size = v.size + 1 := by simp [Val.size]; omega
@[simp] theorem size_none : Val.none.size = 1 := by simp [Val.size]
@[simp] theorem size_token (n : Str) : (Val.token n).size = 1 := by simp [Val.size]
@[simp] theorem size_str (n : Str) : (Val.str n).size = 1 := by simp [Val.size]
@[simp] theorem size_bool (n : Bool) : (Val.bool n).size = 1 := by simp [Val.size]
@[simp] theorem size_list (vs : List Val) : (Val.list vs).size = Val.sizes vs + 1 := by simp [Val.size]; omega
@[simp] theorem size_pair (v w : Val) : (Val.pair v w).size = v.size + w.size + 1 := by simp [Val.size]; omega
@[simp] theorem size_triple (v w x : Val) : (Val.triple v w x).size = v.size + w.size + x.size + 1 := by simp [Val.size]; omega
@[simp] theorem size_struct (n : Str) (fs : List (Str × Val)) : (Val.struct n fs).size = Val.fieldSizes fs + 1 := by
  simp [Val.size]; omega
@[simp] theorem sizes_nil : Val.fieldSizes [] = 0 := by simp [Val.fieldSizes]
@[simp] theorem sizes_cons (n : Str) (v : Val) (fs : List (Str × Val)) :
    Val.fieldSizes ((n, v) :: fs) = v.size + Val.fieldSizes fs := by simp [Val.fieldSizes]

/-! ## Literals -/

theorem heavy_integerLit (v : IntegerLit) : Heavy ((integerLitVal v).size + 5) (integerLit v) := by
  cases v <;> exact (Heavy.literal _ _).mono (by simp [integerLitVal, decVal, hexVal, octVal])

theorem heavy_floatLit (v : FloatLit) : Heavy ((floatLitVal v).size + 5) (floatLit v) := by
  cases v
  · exact (Heavy.literal _ _).mono (by simp [floatLitVal, floatValueVal])
  all_goals exact (Heavy.tok _).mono (by simp [floatLitVal])

theorem heavy_booleanLit (b : Bool) : Heavy ((booleanVal b).size + 5) (booleanLit b) := by
  cases b <;> exact (Heavy.tok _).mono (by simp [booleanVal])

theorem heavy_defaultValue (v : DefaultValue) : Heavy ((defaultValueVal v).size + 4) (defaultValue v) := by
  cases v with
  | boolean b => exact (heavy_booleanLit b).mono (by simp [defaultValueVal])
  | emptyArray => exact ((Heavy.tok _).seq (.tok _)).mono (by simp [defaultValueVal, emptyArrayVal])
  | emptyDictionary => exact ((Heavy.tok _).seq (.tok _)).mono (by simp [defaultValueVal, emptyDictionaryVal])
  | float f => exact (heavy_floatLit f).mono (by simp [defaultValueVal])
  | integer f => exact (heavy_integerLit f).mono (by simp [defaultValueVal])
  | null => exact (Heavy.tok _).mono (by simp [defaultValueVal])
  | string s => exact (Heavy.string s).mono (by simp [defaultValueVal])

theorem heavy_constValue (v : ConstValue) : Heavy ((constValueVal v).size + 4) (constValue v) := by
  cases v with
  | boolean b => exact (heavy_booleanLit b).mono (by simp [constValueVal])
  | float f => exact (heavy_floatLit f).mono (by simp [constValueVal])
  | integer f => exact (heavy_integerLit f).mono (by simp [constValueVal])
  | null => exact (Heavy.tok _).mono (by simp [constValueVal])

theorem heavy_default (d : Option DefaultValue) : Heavy ((optVal defaultVal d).size - 1) (default d) := by
  cases d with
  | none => exact .zero
  | some v => exact ((Heavy.tok _).seq (heavy_defaultValue v)).mono (by simp [optVal, defaultVal] <;> omega)

theorem heavy_integerType (t : IntegerType) : Heavy ((integerTypeVal t).size + 6) (integerType t) := by
  cases t with
  | longLong u => exact ((Heavy.flag (kwVal .unsigned) (by simp) u _).seq ((Heavy.tok _).seq (.tok _))).mono (by
      simp [integerTypeVal] <;> omega)
  | long u => exact ((Heavy.flag (kwVal .unsigned) (by simp) u _).seq (.tok _)).mono (by
      have := size_pos (flagVal (kwVal .unsigned) u)
      simp [integerTypeVal] <;> omega)
  | short u => exact ((Heavy.flag (kwVal .unsigned) (by simp) u _).seq (.tok _)).mono (by
      have := size_pos (flagVal (kwVal .unsigned) u)
      simp [integerTypeVal] <;> omega)

theorem heavy_floatingPointType (t : FloatingPointType) : Heavy ((floatingPointTypeVal t).size + 6) (floatingPointType t) := by
  cases t with
  | float u => exact ((Heavy.flag (kwVal .unrestricted) (by simp) u _).seq (.tok _)).mono (by
      have := size_pos (flagVal (kwVal .unrestricted) u)
      simp [floatingPointTypeVal] <;> omega)
  | double u => exact ((Heavy.flag (kwVal .unrestricted) (by simp) u _).seq (.tok _)).mono (by
      have := size_pos (flagVal (kwVal .unrestricted) u)
      simp [floatingPointTypeVal] <;> omega)

/-! ## Types, attributes, arguments -/

theorem heavy_identifierOrString (v : IdentifierOrString) : Heavy ((identifierOrStringVal v).size + 5) (identifierOrString v) := by
  cases v with
  | identifier i => exact (Heavy.name i).mono (by simp [identifierOrStringVal])
  | string i => exact (Heavy.string i).mono (by simp [identifierOrStringVal])

mutual

theorem heavy_type : ∀ t : Ty, Heavy ((typeVal t).size + 1) (type t)
  | .single t => by
    rw [type, typeVal]
    exact (heavy_singleType t).mono (by simp)
  | .union ms q => by
    rw [type, typeVal]
    exact (((heavy_unionMembers ms).sepBy.parens).seq (Heavy.flag (punctVal .qMark) (by simp) q _)).mono (by
      simp <;> omega)

theorem heavy_singleType : ∀ t : SingleType, Heavy ((singleTypeVal t).size + 2) (singleType t)
  | .any => by
    rw [singleType, singleTypeVal]
    exact (Heavy.tok _).mono (by simp)
  | .nonAny t => by
    rw [singleType, singleTypeVal]
    exact ((heavy_nonAnyType t).avoiding _).mono (by simp)

theorem heavy_nonAnyType : ∀ t : NonAnyType, Heavy ((nonAnyTypeVal t).size + 3) (nonAnyType t)
  | .promise r => by
    rw [nonAnyType, nonAnyTypeVal]
    exact ((Heavy.tok _).seq (heavy_returnType r).angles).mono (by simp <;> omega)
  | .integer t q => by
    rw [nonAnyType, nonAnyTypeVal]
    exact ((heavy_integerType t).seq (Heavy.flag (punctVal .qMark) (by simp) q _)).mono (by
      have := size_pos (flagVal (punctVal .qMark) q)
      simp <;> omega)
  | .floatingPoint t q => by
    rw [nonAnyType, nonAnyTypeVal]
    exact ((heavy_floatingPointType t).seq (Heavy.flag (punctVal .qMark) (by simp) q _)).mono (by
      have := size_pos (flagVal (punctVal .qMark) q)
      simp <;> omega)
  | .builtin b q => by
    rw [nonAnyType, nonAnyTypeVal]
    exact ((Heavy.tok _).seq (Heavy.flag (punctVal .qMark) (by simp) q _)).mono (by simp <;> omega)
  | .sequence t q => by
    rw [nonAnyType, nonAnyTypeVal]
    exact (((Heavy.tok _).seq (heavy_type t).angles).seq (Heavy.flag (punctVal .qMark) (by simp) q _)).mono (by
      simp <;> omega)
  | .frozenArray t q => by
    rw [nonAnyType, nonAnyTypeVal]
    exact (((Heavy.tok _).seq (heavy_type t).angles).seq (Heavy.flag (punctVal .qMark) (by simp) q _)).mono (by
      simp <;> omega)
  | .record k v q => by
    rw [nonAnyType, nonAnyTypeVal]
    exact (((Heavy.tok _).seq ((heavy_recordKeyType k).seq ((Heavy.tok _).seq (heavy_type v))).angles).seq
      (Heavy.flag (punctVal .qMark) (by simp) q _)).mono (by simp <;> omega)
  | .identifier i q => by
    rw [nonAnyType, nonAnyTypeVal]
    exact ((Heavy.typeName _ i).seq (Heavy.flag (punctVal .qMark) (by simp) q _)).mono (by simp <;> omega)

theorem heavy_recordKeyType : ∀ t : RecordKeyType, Heavy (recordKeyTypeVal t).size (recordKeyType t)
  | .byte => by
    rw [recordKeyType, recordKeyTypeVal]
    exact (Heavy.tok _).mono (by simp)
  | .dom => by
    rw [recordKeyType, recordKeyTypeVal]
    exact (Heavy.tok _).mono (by simp)
  | .usv => by
    rw [recordKeyType, recordKeyTypeVal]
    exact (Heavy.tok _).mono (by simp)
  | .nonAny t => by
    rw [recordKeyType, recordKeyTypeVal]
    exact ((heavy_nonAnyType t).avoiding _).mono (by simp)

theorem heavy_unionMember : ∀ m : UnionMember, Heavy (unionMemberVal m).size (unionMember m)
  | .single as t => by
    rw [unionMember, unionMemberVal]
    exact ((heavy_attributes as).seq (heavy_nonAnyType t)).mono (by
      have := size_pos (attrsVal as)
      simp <;> omega)
  | .union ms q => by
    rw [unionMember, unionMemberVal]
    exact (((heavy_unionMembers ms).sepBy.parens).seq (Heavy.flag (punctVal .qMark) (by simp) q _)).mono (by
      simp <;> omega)

theorem heavy_unionMembers : ∀ ms : List UnionMember, Heavies (unionMembers ms) (unionMemberVals ms)
  | [] => by
    rw [unionMembers, unionMemberVals]
    exact .nil
  | m :: ms => by
    rw [unionMembers, unionMemberVals]
    exact .cons (heavy_unionMember m) (heavy_unionMembers ms)

theorem heavy_returnType : ∀ t : ReturnType, Heavy (returnTypeVal t).size (returnType t)
  | .undefined => by
    rw [returnType, returnTypeVal]
    exact (Heavy.tok _).mono (by simp)
  | .type t => by
    rw [returnType, returnTypeVal]
    exact ((heavy_type t).avoiding _).mono (by simp)

theorem heavy_extAttr : ∀ a : ExtAttr, Heavy ((extAttrVal a).size + 4) (extAttr a)
  | .argList i args => by
    rw [extAttr, extAttrVal]
    exact ((Heavy.name i).seq (heavy_arguments args).sepBy.parens).mono (by simp <;> omega)
  | .namedArgList l r args => by
    rw [extAttr, extAttrVal]
    exact ((Heavy.name l).seq ((Heavy.tok _).seq ((Heavy.name r).seq (heavy_arguments args).sepBy.parens))).mono (by
      simp <;> omega)
  | .identList i is => by
    rw [extAttr, extAttrVal]
    exact ((Heavy.name i).seq ((Heavy.tok _).seq (Heavies.map (f := identVal) (fun a => (Heavy.name a).mono (by simp))
      is).sepBy.parens)).mono (by simp <;> omega)
  | .ident l r => by
    rw [extAttr, extAttrVal]
    exact ((Heavy.name l).seq ((Heavy.tok _).seq (heavy_identifierOrString r))).mono (by simp <;> omega)
  | .wildcard l => by
    rw [extAttr, extAttrVal]
    exact ((Heavy.name l).seq ((Heavy.tok _).seq (.tok _))).mono (by simp)
  | .noArgs i => by
    rw [extAttr, extAttrVal]
    exact (Heavy.name i).mono (by simp)

theorem heavy_extAttrs : ∀ as : List ExtAttr, Heavies (extAttrs as) (extAttrVals as)
  | [] => by
    rw [extAttrs, extAttrVals]
    exact .nil
  | a :: as => by
    rw [extAttrs, extAttrVals]
    exact .cons ((heavy_extAttr a).mono (by omega)) (heavy_extAttrs as)

theorem heavy_attributes : ∀ as : Option (List ExtAttr), Heavy ((attrsVal as).size - 1) (attributes as)
  | none => by
    rw [attributes, attrsVal]
    exact Heavy.zero
  | some as => by
    rw [attributes, attrsVal]
    exact (heavy_extAttrs as).sepBy.brackets.mono (by simp <;> omega)

theorem heavy_attributedType : ∀ t : AttributedType, Heavy ((attributedTypeVal t).size - 1) (attributedType t)
  | .mk as t => by
    rw [attributedType, attributedTypeVal]
    exact ((heavy_attributes as).seq (heavy_type t)).mono (by simp <;> omega)

theorem heavy_namedAttributed : ∀ (t : AttributedType) (i : Str),
    Heavy ((attributedTypeVal t).size + 7) (namedAttributed t i)
  | .mk as t, i => by
    rw [namedAttributed, attributedTypeVal]
    exact ((heavy_attributes as).seq ((heavy_type t).named i)).mono (by simp <;> omega)

theorem heavy_argument : ∀ a : Argument, Heavy (argumentVal a).size (argument a)
  | .single as true t i d => by
    rw [argument, argumentVal]
    simp only [if_true]
    exact ((heavy_attributes as).seq ((Heavy.tok _).seq ((heavy_namedAttributed t i).seq (heavy_default d)))).mono (by
      simp [flagVal] <;> omega)
  | .single as false t i d => by
    rw [argument, argumentVal]
    simp only [Bool.false_eq_true, if_false]
    refine ((heavy_attributes as).seq (n := (attributedTypeVal t).size + (optVal defaultVal d).size - 1 + 7) ?_).mono (by
      simp [flagVal] <;> omega)
    rintro ls ⟨rfl, hl⟩
    have := ((heavy_namedAttributed t i).avoiding _) ls hl
    simp only [optVal, size_none]
    omega
  | .variadic as t i => by
    rw [argument, argumentVal]
    exact ((heavy_attributes as).seq ((heavy_type t).seq ((Heavy.tok _).seq (.name i)))).mono (by simp <;> omega)

theorem heavy_arguments : ∀ as : List Argument, Heavies (arguments as) (argumentVals as)
  | [] => by
    rw [arguments, argumentVals]
    exact .nil
  | a :: as => by
    rw [arguments, argumentVals]
    exact .cons (heavy_argument a) (heavy_arguments as)

end

theorem heavy_argumentList (args : List Argument) : Heavy ((argsVal args).size + 10) (argumentList args) :=
  (heavy_arguments args).sepBy.parens.mono (by simp [argsVal])

theorem heavy_optArgumentList (args : Option (List Argument)) :
    Heavy ((optVal argsVal args).size - 1) (optArgumentList args) := by
  cases args with
  | none => exact .zero
  | some args => exact (heavy_argumentList args).mono (by simp [optVal] <;> omega)

theorem heavy_constType (t : ConstType) : Heavy ((constTypeVal t).size + 3) (constType t) := by
  cases t with
  | integer t q => exact ((heavy_integerType t).seq (Heavy.flag (punctVal .qMark) (by simp) q _)).mono (by
      have := size_pos (flagVal (punctVal .qMark) q)
      simp [constTypeVal] <;> omega)
  | floatingPoint t q => exact ((heavy_floatingPointType t).seq (Heavy.flag (punctVal .qMark) (by simp) q _)).mono (by
      have := size_pos (flagVal (punctVal .qMark) q)
      simp [constTypeVal] <;> omega)
  | identifier i q => exact ((Heavy.typeName _ i).seq (Heavy.flag (punctVal .qMark) (by simp) q _)).mono (by
      simp [constTypeVal] <;> omega)
  | _ q => exact ((Heavy.tok _).seq (Heavy.flag (punctVal .qMark) (by simp) q _)).mono (by
      simp [constTypeVal] <;> omega)

/-! ## Members -/

theorem heavy_returnNamed (r : ReturnType) (i : Option Str) :
    Heavy ((returnTypeVal r).size + (optVal identVal i).size - 1) (returnNamed r i) := by
  cases i with
  | none => exact (heavy_returnType r).mono (by simp [optVal])
  | some i => exact ((heavy_returnType r).named i).mono (by simp [optVal] <;> omega)

theorem heavy_constMember (n : Str) (m : ConstMember) : Heavy ((constVal n m).size + 4) (constMember m) :=
  ((heavy_attributes _).seq ((Heavy.tok _).seq (((heavy_constType _).named _).seq ((Heavy.tok _).seq
    ((heavy_constValue _).seq (.tok _)))))).mono (by simp [constVal] <;> omega)

theorem heavy_modifier (m : Option StringifierOrInheritOrStatic) :
    Heavy ((optVal stringifierOrInheritOrStaticVal m).size - 1) (modifier m) := by
  rcases m with - | (_ | _ | _)
  · exact .zero
  all_goals exact (Heavy.tok _).mono (by simp [optVal, stringifierOrInheritOrStaticVal])

theorem heavy_attributeInterfaceMember (m : AttributeInterfaceMember) :
    Heavy ((attributeInterfaceMemberVal m).size + 4) (attributeInterfaceMember m) :=
  ((heavy_attributes _).seq ((heavy_modifier _).seq ((Heavy.flag (kwVal .readOnly) (by simp) _ _).seq ((Heavy.tok _).seq
    ((heavy_namedAttributed _ _).seq (.tok _)))))).mono (by simp [attributeInterfaceMemberVal] <;> omega)

theorem heavy_constructorInterfaceMember (m : ConstructorInterfaceMember) :
    Heavy ((constructorInterfaceMemberVal m).size + 4) (constructorInterfaceMember m) :=
  ((heavy_attributes _).seq ((Heavy.tok _).seq ((heavy_argumentList _).seq (.tok _)))).mono (by
    simp [constructorInterfaceMemberVal] <;> omega)

theorem heavy_modified {n : Nat} {A : Lang} (m : Option StringifierOrStatic) (h : Heavy n A) :
    Heavy ((optVal stringifierOrStaticVal m).size - 1 + n) (modified m A) := by
  rcases m with - | (_ | _)
  · exact (h.avoiding _).mono (by simp [optVal])
  all_goals exact ((Heavy.tok _).seq h).mono (by simp [optVal, stringifierOrStaticVal])

theorem heavy_specialised {n : Nat} {A : Lang} (m : Option Special) (h : Heavy n A) :
    Heavy ((optVal specialVal m).size - 1 + n) (specialised m A) := by
  rcases m with - | (_ | _ | _ | _)
  · exact (h.avoiding _).mono (by simp [optVal])
  all_goals exact ((Heavy.tok _).seq h).mono (by simp [optVal, specialVal])

theorem heavy_operationInterfaceMember (m : OperationInterfaceMember) :
    Heavy ((operationInterfaceMemberVal m).size + 4) (operationInterfaceMember m) :=
  ((heavy_attributes _).seq ((heavy_modified _ (heavy_specialised _ ((heavy_returnNamed _ _).seq ((heavy_argumentList _).seq
    (.tok _))))).avoiding _)).mono (by simp [operationInterfaceMemberVal] <;> omega)

theorem heavy_typePair (p : AttributedType × AttributedType) : Heavy ((attributedTypePairVal p).size + 4) (typePair p) :=
  ((heavy_attributedType _).seq ((Heavy.tok _).seq (heavy_attributedType _))).mono (by simp [attributedTypePairVal] <;> omega)

theorem heavy_iterableInterfaceMember (m : IterableInterfaceMember) :
    Heavy ((iterableInterfaceMemberVal m).size + 4) (iterableInterfaceMember m) := by
  cases m
  · exact ((heavy_attributes _).seq ((Heavy.tok _).seq ((heavy_attributedType _).angles.seq (.tok _)))).mono (by
      simp [iterableInterfaceMemberVal] <;> omega)
  · exact ((heavy_attributes _).seq ((Heavy.tok _).seq ((heavy_typePair _).angles.seq (.tok _)))).mono (by
      simp [iterableInterfaceMemberVal] <;> omega)

theorem heavy_asyncIterableInterfaceMember (m : AsyncIterableInterfaceMember) :
    Heavy ((asyncIterableInterfaceMemberVal m).size + 4) (asyncIterableInterfaceMember m) := by
  cases m
  · exact ((heavy_attributes _).seq ((Heavy.tok _).seq ((Heavy.tok _).seq ((heavy_attributedType _).angles.seq
      ((heavy_optArgumentList _).seq (.tok _)))))).mono (by simp [asyncIterableInterfaceMemberVal] <;> omega)
  · exact ((heavy_attributes _).seq ((Heavy.tok _).seq ((Heavy.tok _).seq ((heavy_typePair _).angles.seq
      ((heavy_optArgumentList _).seq (.tok _)))))).mono (by simp [asyncIterableInterfaceMemberVal] <;> omega)

theorem heavy_maplikeInterfaceMember (m : MaplikeInterfaceMember) :
    Heavy ((maplikeInterfaceMemberVal m).size + 4) (maplikeInterfaceMember m) :=
  ((heavy_attributes _).seq ((Heavy.flag (kwVal .readOnly) (by simp) _ _).seq ((Heavy.tok _).seq ((heavy_typePair _).angles.seq
    (.tok _))))).mono (by simp [maplikeInterfaceMemberVal] <;> omega)

theorem heavy_setlikeInterfaceMember (m : SetlikeInterfaceMember) :
    Heavy ((setlikeInterfaceMemberVal m).size + 4) (setlikeInterfaceMember m) :=
  ((heavy_attributes _).seq ((Heavy.flag (kwVal .readOnly) (by simp) _ _).seq ((Heavy.tok _).seq
    ((heavy_attributedType _).angles.seq (.tok _))))).mono (by simp [setlikeInterfaceMemberVal] <;> omega)

theorem heavy_stringifierMember (m : StringifierMember) :
    Heavy ((stringifierMemberVal m).size + 4) (stringifierMember m) :=
  ((heavy_attributes _).seq ((Heavy.tok _).seq (.tok _))).mono (by simp [stringifierMemberVal] <;> omega)

theorem heavy_interfaceMember (m : InterfaceMember) : Heavy (interfaceMemberVal m).size (interfaceMember m) := by
  cases m with
  | const m => exact (heavy_constMember c!"ConstMember" m).mono (by simp [interfaceMemberVal])
  | «attribute» m => exact (heavy_attributeInterfaceMember m).mono (by simp [interfaceMemberVal])
  | constructor m => exact (heavy_constructorInterfaceMember m).mono (by simp [interfaceMemberVal])
  | operation m => exact (heavy_operationInterfaceMember m).mono (by simp [interfaceMemberVal])
  | iterable m => exact (heavy_iterableInterfaceMember m).mono (by simp [interfaceMemberVal])
  | asyncIterable m => exact (heavy_asyncIterableInterfaceMember m).mono (by simp [interfaceMemberVal])
  | maplike m => exact (heavy_maplikeInterfaceMember m).mono (by simp [interfaceMemberVal])
  | setlike m => exact (heavy_setlikeInterfaceMember m).mono (by simp [interfaceMemberVal])
  | stringifier m => exact (heavy_stringifierMember m).mono (by simp [interfaceMemberVal])

theorem Heavy.optWord {n : Nat} {A : Lang} (v : Val) (hv : v.size ≤ 10) (b : Bool) (w : Str) (h : Heavy n A) :
    Heavy ((flagVal v b).size - 1 + n) (optWord b w A) := by
  cases b
  · exact (h.avoiding _).mono (by simp [flagVal])
  · exact ((Heavy.tok w).seq h).mono (by simp [flagVal] <;> omega)

theorem heavy_operationMixinMember (m : OperationMixinMember) :
    Heavy ((operationMixinMemberVal m).size + 4) (operationMixinMember m) :=
  ((heavy_attributes _).seq (((heavy_returnNamed _ _).seq ((heavy_argumentList _).seq (.tok _))).optWord (kwVal .stringifier)
    (by simp) _ _)).mono (by simp [operationMixinMemberVal] <;> omega)

theorem heavy_attributeMixinMember (m : AttributeMixinMember) :
    Heavy ((attributeMixinMemberVal m).size + 4) (attributeMixinMember m) :=
  ((heavy_attributes _).seq ((Heavy.flag (kwVal .stringifier) (by simp) _ _).seq ((Heavy.flag (kwVal .readOnly) (by simp) _ _).seq
    ((Heavy.tok _).seq ((heavy_namedAttributed _ _).seq (.tok _)))))).mono (by simp [attributeMixinMemberVal] <;> omega)

theorem heavy_mixinMember (m : MixinMember) : Heavy (mixinMemberVal m).size (mixinMember m) := by
  cases m with
  | const m => exact (heavy_constMember c!"ConstMember" m).mono (by simp [mixinMemberVal])
  | operation m => exact (heavy_operationMixinMember m).mono (by simp [mixinMemberVal])
  | «attribute» m => exact (heavy_attributeMixinMember m).mono (by simp [mixinMemberVal])
  | stringifier m => exact (heavy_stringifierMember m).mono (by simp [mixinMemberVal])

theorem heavy_operationNamespaceMember (m : OperationNamespaceMember) :
    Heavy ((operationNamespaceMemberVal m).size + 4) (operationNamespaceMember m) :=
  ((heavy_attributes _).seq ((heavy_returnNamed _ _).seq ((heavy_argumentList _).seq (.tok _)))).mono (by
    simp [operationNamespaceMemberVal] <;> omega)

theorem heavy_attributeNamespaceMember (m : AttributeNamespaceMember) :
    Heavy ((attributeNamespaceMemberVal m).size + 4) (attributeNamespaceMember m) :=
  ((heavy_attributes _).seq ((Heavy.tok _).seq ((Heavy.tok _).seq ((heavy_namedAttributed _ _).seq (.tok _))))).mono (by
    simp [attributeNamespaceMemberVal] <;> omega)

theorem heavy_namespaceMember (m : NamespaceMember) : Heavy (namespaceMemberVal m).size (namespaceMember m) := by
  cases m with
  | const m => exact (heavy_constMember c!"ConstNamespaceMember" m).mono (by simp [namespaceMemberVal])
  | operation m => exact (heavy_operationNamespaceMember m).mono (by simp [namespaceMemberVal])
  | «attribute» m => exact (heavy_attributeNamespaceMember m).mono (by simp [namespaceMemberVal])

theorem heavy_dictionaryMember (m : DictionaryMember) : Heavy (dictionaryMemberVal m).size (dictionaryMember m) :=
  ((heavy_attributes _).seq ((((heavy_type _).named _).seq ((heavy_default _).seq (.tok _))).optWord (kwVal .required)
    (by simp) _ _)).mono (by simp [dictionaryMemberVal] <;> omega)

/-! ## Definitions -/

theorem heavy_inheritance (i : Option Str) : Heavy ((optVal inheritanceVal i).size - 1) (inheritance i) := by
  cases i with
  | none => exact .zero
  | some i => exact ((Heavy.tok _).seq (.name i)).mono (by simp [optVal, inheritanceVal])

theorem heavy_body {α : Type} {L : α → Lang} {f : α → Val} (h : ∀ a, Heavy (f a).size (L a)) (ms : List α) :
    Heavy ((bodyVal f ms).size + 20) (body L ms) :=
  ((Heavy.concat h ms).braces.seq (.tok _)).mono (by simp [bodyVal])

theorem heavy_enumValues (vs : List Str) : Heavy (Val.sizes (vs.map stringVal)) (enumValues vs) := by
  rintro ls ⟨-, b, h⟩
  exact (((Heavies.map (f := stringVal) (fun a => (Heavy.string a).mono (by simp)) vs).sepBy).seq Heavy.zero) ls h

theorem heavy_definition (d : Definition) : Heavy (definitionVal d).size (definition d) := by
  cases d with
  | callback as i r args =>
    exact ((heavy_attributes _).seq ((Heavy.tok _).seq ((Heavy.name _).seq ((Heavy.tok _).seq ((heavy_returnType _).seq
      ((heavy_argumentList _).seq (.tok _))))))).mono (by simp [definitionVal] <;> omega)
  | callbackInterface as i inh ms =>
    exact ((heavy_attributes _).seq ((Heavy.tok _).seq ((Heavy.tok _).seq ((Heavy.name _).seq ((heavy_inheritance _).seq
      (heavy_body heavy_interfaceMember ms)))))).mono (by simp [definitionVal] <;> omega)
  | interface as i inh ms =>
    exact ((heavy_attributes _).seq ((Heavy.tok _).seq ((Heavy.name _).seq ((heavy_inheritance _).seq
      (heavy_body heavy_interfaceMember ms))))).mono (by simp [definitionVal] <;> omega)
  | interfaceMixin as i ms =>
    exact ((heavy_attributes _).seq ((Heavy.tok _).seq ((Heavy.tok _).seq ((Heavy.name _).seq
      (heavy_body heavy_mixinMember ms))))).mono (by simp [definitionVal] <;> omega)
  | «namespace» as i ms =>
    exact ((heavy_attributes _).seq ((Heavy.tok _).seq ((Heavy.name _).seq
      (heavy_body heavy_namespaceMember ms)))).mono (by simp [definitionVal] <;> omega)
  | dictionary as i inh ms =>
    exact ((heavy_attributes _).seq ((Heavy.tok _).seq ((Heavy.name _).seq ((heavy_inheritance _).seq
      (heavy_body heavy_dictionaryMember ms))))).mono (by simp [definitionVal] <;> omega)
  | partialInterface as i ms =>
    exact ((heavy_attributes _).seq ((Heavy.tok _).seq ((Heavy.tok _).seq ((Heavy.name _).seq
      (heavy_body heavy_interfaceMember ms))))).mono (by simp [definitionVal] <;> omega)
  | partialInterfaceMixin as i ms =>
    exact ((heavy_attributes _).seq ((Heavy.tok _).seq ((Heavy.tok _).seq ((Heavy.tok _).seq ((Heavy.name _).seq
      (heavy_body heavy_mixinMember ms)))))).mono (by simp [definitionVal] <;> omega)
  | partialDictionary as i ms =>
    exact ((heavy_attributes _).seq ((Heavy.tok _).seq ((Heavy.tok _).seq ((Heavy.name _).seq
      (heavy_body heavy_dictionaryMember ms))))).mono (by simp [definitionVal] <;> omega)
  | partialNamespace as i ms =>
    exact ((heavy_attributes _).seq ((Heavy.tok _).seq ((Heavy.tok _).seq ((Heavy.name _).seq
      (heavy_body heavy_namespaceMember ms))))).mono (by simp [definitionVal] <;> omega)
  | enum as i vs =>
    exact ((heavy_attributes _).seq ((Heavy.tok _).seq ((Heavy.name _).seq ((heavy_enumValues vs).braces.seq
      (.tok _))))).mono (by simp [definitionVal] <;> omega)
  | typedef as t i =>
    exact ((heavy_attributes _).seq ((Heavy.tok _).seq ((heavy_namedAttributed _ _).seq (.tok _)))).mono (by
      simp [definitionVal] <;> omega)
  | includesStatement as l r =>
    exact ((heavy_attributes _).seq (((Heavy.name _).avoiding _).seq ((Heavy.tok _).seq ((Heavy.name _).seq
      (.tok _))))).mono (by simp [definitionVal] <;> omega)
  | implements as l r =>
    exact ((heavy_attributes _).seq (((Heavy.name _).avoiding _).seq ((Heavy.tok _).seq ((Heavy.name _).seq
      (.tok _))))).mono (by simp [definitionVal] <;> omega)

theorem heavy_definitions (ds : List Definition) : Heavy (Val.sizes (ds.map definitionVal)) (definitions ds) :=
  Heavy.concat heavy_definition ds

end Verif.Sizes
