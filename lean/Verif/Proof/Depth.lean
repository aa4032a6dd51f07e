import Verif.Spec.Size
import Verif.Spec.Grammar
import Verif.Source.Value
import Verif.Proof.Nesting

/-! # The depth of the result and the nesting of brackets -/

namespace Verif.Depths
open Spec Source

/-- The nesting of lexemes in front of a text with nesting `k`. -/
def levels : List Str → Nat → Nat
  | [], k => k
  | w :: ls, k =>
    if w = c!"(" ∨ w = c!"<" then levels ls k + 1
    else if w = c!")" ∨ w = c!">" then levels ls k - 1
    else levels ls k

theorem levels_append (a b : List Str) (k : Nat) : levels (a ++ b) k = levels a (levels b k) := by
  induction a with
  | nil => rfl
  | cons w a ih => simp only [List.cons_append, levels, ih]

/-- A lexeme other than brackets. -/
def Plain (w : Str) : Prop := w ≠ c!"(" ∧ w ≠ c!"<" ∧ w ≠ c!")" ∧ w ≠ c!">"

instance (w : Str) : Decidable (Plain w) := inferInstanceAs (Decidable (_ ∧ _))

theorem levels_plain {w : Str} (h : Plain w) (ls : List Str) (k : Nat) : levels (w :: ls) k = levels ls k := by
  obtain ⟨h1, h2, h3, h4⟩ := h
  simp [levels, *]

/-- All spellings contain brackets nested at least `n / 12` deep, and close all their brackets. -/
def Deep (n : Nat) (A : Lang) : Prop := ∀ ls, A ls → ∀ k, k ≤ levels ls k ∧ n ≤ 12 * levels ls k

section
variable {m n : Nat} {A B : Lang}

theorem Deep.mono (h : Deep n A) (hm : m ≤ n) : Deep m A := fun ls hl k => ⟨(h ls hl k).1, Nat.le_trans hm (h ls hl k).2⟩

theorem Deep.seq (h : Deep m A) (h' : Deep n B) : Deep (max m n) (A ⨾ B) := by
  rintro _ ⟨x, y, rfl, hx, hy⟩ k
  rw [levels_append]
  have h1 := h' y hy k
  have h2 := h x hx (levels y k)
  omega

theorem Deep.plain {w : Str} (h : Plain w) : ∀ k, k ≤ levels [w] k ∧ 0 ≤ 12 * levels [w] k := fun k => by
  rw [levels_plain h]
  exact ⟨Nat.le_refl _, Nat.zero_le _⟩

theorem Deep.tok (w : Str) (h : Plain w := by decide) : Deep 0 (tok w) := by
  rintro _ rfl
  exact plain h

theorem Deep.eps : Deep 0 eps := by
  rintro _ rfl k
  exact ⟨Nat.le_refl _, Nat.zero_le _⟩

theorem Deep.avoiding (ps : List (List Str)) (h : Deep n A) : Deep n (avoiding ps A) := fun ls hl => h ls hl.1

theorem plain_word {i : Str} (h : Regex.word.Matches i) : Plain i ∧ Plain ('_' :: i) := by
  obtain ⟨c, v, rfl, h1, -⟩ := word_iff.1 h
  refine ⟨⟨?_, ?_, ?_, ?_⟩, ?_, ?_, ?_, ?_⟩ <;> intro h2 <;> simp at h2 <;> (obtain ⟨rfl, -⟩ := h2; revert h1; decide)

theorem Deep.name (i : Str) : Deep 0 (name i) := by
  rintro _ ⟨h, rfl | rfl⟩
  · exact plain (plain_word h).1
  · exact plain (plain_word h).2

theorem Deep.typeName (ws : List Str) (i : Str) : Deep 0 (typeName ws i) := by
  rintro _ ⟨h, ⟨rfl, -⟩ | rfl⟩
  · exact plain (plain_word h).1
  · exact plain (plain_word h).2

theorem Deep.string (v : Str) : Deep 0 (string v) := by
  rintro _ ⟨-, rfl⟩
  exact plain (by refine ⟨?_, ?_, ?_, ?_⟩ <;> intro h <;> simp at h)

theorem plain_number {w : Str} (h : Number w) : Plain w := by
  refine ⟨?_, ?_, ?_, ?_⟩ <;> rintro rfl
  all_goals exact plain_num (h.chars _ (List.mem_singleton.2 rfl)) (by decide)

theorem Deep.literal {re : Regex} (h : ∀ v, re.Matches v → Number v) (v : Str) : Deep 0 (literal re v) := by
  rintro _ ⟨h1, rfl⟩
  exact plain (plain_number (h v h1))

theorem Deep.named (i : Str) (h : Deep n A) : Deep n (named A i) := by
  rintro _ ⟨x, y, rfl, hx, hy, -⟩ k
  have := (h.seq (Deep.name i)) _ ⟨x, y, rfl, hx, hy⟩ k
  omega

theorem Deep.parens (h : Deep n A) : Deep (n + 12) (parens A) := by
  rintro _ ⟨_, _, rfl, rfl, x, _, rfl, hx, rfl⟩ k
  have := h x hx (k - 1)
  simp only [List.singleton_append, levels, levels_append]
  simp
  omega

theorem Deep.angles (h : Deep n A) : Deep (n + 12) (angles A) := by
  rintro _ ⟨_, _, rfl, rfl, x, _, rfl, hx, rfl⟩ k
  have := h x hx (k - 1)
  simp only [List.singleton_append, levels, levels_append]
  simp
  omega

theorem Deep.brackets (h : Deep n A) : Deep n (brackets A) := ((Deep.tok _).seq (h.seq (.tok _))).mono (by omega)
theorem Deep.braces (h : Deep n A) : Deep n (braces A) := ((Deep.tok _).seq (h.seq (.tok _))).mono (by omega)

/-- the languages and values in the same order -/
inductive Deeps (d : Nat) : List Lang → List Val → Prop where
  | nil : Deeps d [] []
  | cons {A : Lang} {As : List Lang} {v : Val} {vs : List Val} : Deep (v.depth - d) A → Deeps d As vs → Deeps d (A :: As) (v :: vs)

theorem Deeps.map {α : Type} {d : Nat} {L : α → Lang} {f : α → Val} (h : ∀ a, Deep ((f a).depth - d) (L a)) (as : List α) :
    Deeps d (as.map L) (as.map f) := by
  induction as with
  | nil => exact .nil
  | cons a as ih => exact .cons (h a) ih

theorem Deep.concat {α : Type} {d : Nat} {L : α → Lang} {f : α → Val} (h : ∀ a, Deep ((f a).depth - d) (L a)) (as : List α) :
    Deep (Val.depths (as.map f) - d) (concat (as.map L)) := by
  induction as with
  | nil => exact Deep.eps.mono (by simp [Val.depths])
  | cons a as ih => exact ((h a).seq ih).mono (by simp [Val.depths]; omega)

theorem Deeps.sepBy {d : Nat} {sep : Lang} {As : List Lang} {vs : List Val} (h : Deeps d As vs) (hs : Deep 0 sep) :
    Deep (Val.depths vs - d) (sepBy sep As) := by
  induction h with
  | nil => exact Deep.eps.mono (by simp [Val.depths])
  | @cons A As v vs h1 h2 ih =>
    cases h2 with
    | nil => exact h1.mono (by simp [Val.depths])
    | cons h3 h4 => exact (h1.seq (hs.seq ih)).mono (by simp [Val.depths]; omega)

end

theorem depth_pos (v : Val) : 1 ≤ v.depth := by
  cases v <;> simp [Val.depth] <;> omega

@[simp] theorem depth_kw (k : Kw) : (kwVal k).depth = 1 := by simp [kwVal, Val.depth]
@[simp] theorem depth_punct (p : Punct) : (punctVal p).depth = 1 := by simp [punctVal, Val.depth]
@[simp] theorem depth_ident (i : Str) : (identVal i).depth = 2 := by simp [identVal, Val.depth]
@[simp] theorem depth_string (i : Str) : (stringVal i).depth = 2 := by simp [stringVal, Val.depth]
@[simp] theorem depth_variant (n m : Str) (v : Val) : (Val.variant n m v).depth = 1 + v.depth := by simp [Val.depth]
@[simp] theorem depth_newtype (n : Str) (v : Val) : (Val.newtype n v).depth = 1 + v.depth := by simp [Val.depth]
@[simp] theorem depth_some (v : Val) : (Val.some v).depth = 1 + v.depth := by simp [Val.depth]
@[simp] theorem depth_box (v : Val) : (Val.box v).depth = 1 + v.depth := by simp [Val.depth]
@[simp] theorem depth_none : Val.none.depth = 1 := by simp [Val.depth]
@[simp] theorem depth_token (n : Str) : (Val.token n).depth = 1 := by simp [Val.depth]
@[simp] theorem depth_str (n : Str) : (Val.str n).depth = 1 := by simp [Val.depth]
@[simp] theorem depth_bool (n : Bool) : (Val.bool n).depth = 1 := by simp [Val.depth]
@[simp] theorem depth_list (vs : List Val) : (Val.list vs).depth = 1 + Val.depths vs := by simp [Val.depth]
@[simp] theorem depth_pair (v w : Val) : (Val.pair v w).depth = 1 + max v.depth w.depth := by simp [Val.depth]
@[simp] theorem depth_triple (v w x : Val) : (Val.triple v w x).depth = 1 + max v.depth (max w.depth x.depth) := by
  simp [Val.depth]
@[simp] theorem depth_struct (n : Str) (fs : List (Str × Val)) : (Val.struct n fs).depth = 1 + Val.fieldDepths fs := by
  simp [Val.depth]
@[simp] theorem depths_nil : Val.fieldDepths [] = 0 := by simp [Val.fieldDepths]
@[simp] theorem depths_cons (n : Str) (v : Val) (fs : List (Str × Val)) :
    Val.fieldDepths ((n, v) :: fs) = max v.depth (Val.fieldDepths fs) := by simp [Val.fieldDepths]
theorem depth_between {o b c : Str} {x y v : Val} {n : Str} (hx : x.depth = 1) (hy : y.depth = 1) :
    (Val.struct n [(o, x), (b, v), (c, y)]).depth = 1 + v.depth := by
  have := depth_pos v
  simp [hx, hy]
  omega
@[simp] theorem depth_paren (v : Val) : (parenVal v).depth = 1 + v.depth := depth_between (depth_punct _) (depth_punct _)
@[simp] theorem depth_bracket (v : Val) : (bracketVal v).depth = 1 + v.depth := depth_between (depth_punct _) (depth_punct _)
@[simp] theorem depth_brace (v : Val) : (braceVal v).depth = 1 + v.depth := depth_between (depth_punct _) (depth_punct _)
@[simp] theorem depth_generics (v : Val) : (genericsVal v).depth = 1 + v.depth := depth_between (depth_punct _) (depth_punct _)
@[simp] theorem depth_punctuated (s : Val) (vs : List Val) :
    (punctuatedVal s vs).depth = 1 + max (1 + Val.depths vs) s.depth := by simp [punctuatedVal]
@[simp] theorem depth_punctuatedNonEmpty (s : Val) (vs : List Val) :
    (punctuatedNonEmptyVal s vs).depth = 1 + max (1 + Val.depths vs) s.depth := by simp [punctuatedNonEmptyVal]
@[simp] theorem depth_null (v : Val) (q : Bool) :
    (nullVal v q).depth = 1 + max v.depth (flagVal (punctVal .qMark) q).depth := by simp [nullVal]
theorem Deep.flag (v : Val) (hv : v.depth = 1) (b : Bool) (w : Str) (h : Plain w := by decide) :
    Deep ((flagVal v b).depth - 2) (optTok b w) := by
  cases b
  · exact Deep.eps.mono (by simp [flagVal])
  · exact (Deep.tok w h).mono (by simp [flagVal, hv])

/-! ## Literals -/

theorem deep_integerLit (v : IntegerLit) : Deep ((integerLitVal v).depth - 3) (integerLit v) := by
  cases v
  · exact (Deep.literal (fun _ h => .inl h) _).mono (by simp [integerLitVal, decVal])
  · exact (Deep.literal (fun _ h => .inr (.inl h)) _).mono (by simp [integerLitVal, hexVal])
  · exact (Deep.literal (fun _ h => .inr (.inr (.inl h))) _).mono (by simp [integerLitVal, octVal])

theorem deep_floatLit (v : FloatLit) : Deep ((floatLitVal v).depth - 3) (floatLit v) := by
  cases v
  · exact (Deep.literal (fun _ h => .inr (.inr (.inr h))) _).mono (by simp [floatLitVal, floatValueVal] <;> omega)
  all_goals exact (Deep.tok _).mono (by simp [floatLitVal] <;> omega)

theorem deep_booleanLit (b : Bool) : Deep ((booleanVal b).depth - 2) (booleanLit b) := by
  cases b <;> exact (Deep.tok _).mono (by simp [booleanVal] <;> omega)

theorem deep_defaultValue (v : DefaultValue) : Deep ((defaultValueVal v).depth - 4) (defaultValue v) := by
  cases v with
  | boolean b => exact (deep_booleanLit b).mono (by simp [defaultValueVal] <;> omega)
  | emptyArray => exact ((Deep.tok _).seq (.tok _)).mono (by simp [defaultValueVal, emptyArrayVal] <;> omega)
  | emptyDictionary => exact ((Deep.tok _).seq (.tok _)).mono (by simp [defaultValueVal, emptyDictionaryVal] <;> omega)
  | float f => exact (deep_floatLit f).mono (by simp [defaultValueVal] <;> omega)
  | integer f => exact (deep_integerLit f).mono (by simp [defaultValueVal] <;> omega)
  | null => exact (Deep.tok _).mono (by simp [defaultValueVal] <;> omega)
  | string s => exact (Deep.string s).mono (by simp [defaultValueVal] <;> omega)

theorem deep_constValue (v : ConstValue) : Deep ((constValueVal v).depth - 4) (constValue v) := by
  cases v with
  | boolean b => exact (deep_booleanLit b).mono (by simp [constValueVal] <;> omega)
  | float f => exact (deep_floatLit f).mono (by simp [constValueVal] <;> omega)
  | integer f => exact (deep_integerLit f).mono (by simp [constValueVal] <;> omega)
  | null => exact (Deep.tok _).mono (by simp [constValueVal] <;> omega)

theorem deep_default (d : Option DefaultValue) : Deep ((optVal defaultVal d).depth - 6) (default d) := by
  cases d with
  | none => exact .eps
  | some v => exact ((Deep.tok _).seq (deep_defaultValue v)).mono (by simp [optVal, defaultVal] <;> omega)

theorem deep_integerType (t : IntegerType) : Deep ((integerTypeVal t).depth - 4) (integerType t) := by
  cases t with
  | longLong u => exact ((Deep.flag (kwVal .unsigned) (by simp) u _).seq ((Deep.tok _).seq (.tok _))).mono (by
      simp [integerTypeVal] <;> omega)
  | long u => exact ((Deep.flag (kwVal .unsigned) (by simp) u _).seq (.tok _)).mono (by
      have := depth_pos (flagVal (kwVal .unsigned) u)
      simp [integerTypeVal] <;> omega)
  | short u => exact ((Deep.flag (kwVal .unsigned) (by simp) u _).seq (.tok _)).mono (by
      have := depth_pos (flagVal (kwVal .unsigned) u)
      simp [integerTypeVal] <;> omega)

theorem deep_floatingPointType (t : FloatingPointType) : Deep ((floatingPointTypeVal t).depth - 4) (floatingPointType t) := by
  cases t with
  | float u => exact ((Deep.flag (kwVal .unrestricted) (by simp) u _).seq (.tok _)).mono (by
      have := depth_pos (flagVal (kwVal .unrestricted) u)
      simp [floatingPointTypeVal] <;> omega)
  | double u => exact ((Deep.flag (kwVal .unrestricted) (by simp) u _).seq (.tok _)).mono (by
      have := depth_pos (flagVal (kwVal .unrestricted) u)
      simp [floatingPointTypeVal] <;> omega)

/-! ## Types, attributes, arguments -/

theorem deep_identifierOrString (v : IdentifierOrString) : Deep ((identifierOrStringVal v).depth - 3) (identifierOrString v) := by
  cases v with
  | identifier i => exact (Deep.name i).mono (by simp [identifierOrStringVal] <;> omega)
  | string i => exact (Deep.string i).mono (by simp [identifierOrStringVal] <;> omega)

mutual

theorem deep_type : ∀ t : Ty, Deep ((typeVal t).depth - 8) (type t)
  | .single t => by
    rw [type, typeVal]
    exact (deep_singleType t).mono (by simp <;> omega)
  | .union ms q => by
    rw [type, typeVal]
    exact ((((deep_unionMembers ms).sepBy (.tok c!"or")).parens).seq (Deep.flag (punctVal .qMark) (by simp) q _)).mono (by
      simp <;> omega)

theorem deep_singleType : ∀ t : SingleType, Deep ((singleTypeVal t).depth - 7) (singleType t)
  | .any => by
    rw [singleType, singleTypeVal]
    exact (Deep.tok _).mono (by simp <;> omega)
  | .nonAny t => by
    rw [singleType, singleTypeVal]
    exact ((deep_nonAnyType t).avoiding _).mono (by simp <;> omega)

theorem deep_nonAnyType : ∀ t : NonAnyType, Deep ((nonAnyTypeVal t).depth - 6) (nonAnyType t)
  | .promise r => by
    rw [nonAnyType, nonAnyTypeVal]
    exact ((Deep.tok _).seq (deep_returnType r).angles).mono (by simp <;> omega)
  | .integer t q => by
    rw [nonAnyType, nonAnyTypeVal]
    exact ((deep_integerType t).seq (Deep.flag (punctVal .qMark) (by simp) q _)).mono (by
      have := depth_pos (flagVal (punctVal .qMark) q)
      simp <;> omega)
  | .floatingPoint t q => by
    rw [nonAnyType, nonAnyTypeVal]
    exact ((deep_floatingPointType t).seq (Deep.flag (punctVal .qMark) (by simp) q _)).mono (by
      have := depth_pos (flagVal (punctVal .qMark) q)
      simp <;> omega)
  | .builtin b q => by
    rw [nonAnyType, nonAnyTypeVal]
    exact ((Deep.tok _ (by cases b <;> decide)).seq (Deep.flag (punctVal .qMark) (by simp) q _)).mono (by simp <;> omega)
  | .sequence t q => by
    rw [nonAnyType, nonAnyTypeVal]
    exact (((Deep.tok _).seq (deep_type t).angles).seq (Deep.flag (punctVal .qMark) (by simp) q _)).mono (by
      simp <;> omega)
  | .frozenArray t q => by
    rw [nonAnyType, nonAnyTypeVal]
    exact (((Deep.tok _).seq (deep_type t).angles).seq (Deep.flag (punctVal .qMark) (by simp) q _)).mono (by
      simp <;> omega)
  | .record k v q => by
    rw [nonAnyType, nonAnyTypeVal]
    exact (((Deep.tok _).seq ((deep_recordKeyType k).seq ((Deep.tok _).seq (deep_type v))).angles).seq
      (Deep.flag (punctVal .qMark) (by simp) q _)).mono (by simp <;> omega)
  | .identifier i q => by
    rw [nonAnyType, nonAnyTypeVal]
    exact ((Deep.typeName _ i).seq (Deep.flag (punctVal .qMark) (by simp) q _)).mono (by simp <;> omega)

theorem deep_recordKeyType : ∀ t : RecordKeyType, Deep ((recordKeyTypeVal t).depth - 7) (recordKeyType t)
  | .byte => by
    rw [recordKeyType, recordKeyTypeVal]
    exact (Deep.tok _).mono (by simp <;> omega)
  | .dom => by
    rw [recordKeyType, recordKeyTypeVal]
    exact (Deep.tok _).mono (by simp <;> omega)
  | .usv => by
    rw [recordKeyType, recordKeyTypeVal]
    exact (Deep.tok _).mono (by simp <;> omega)
  | .nonAny t => by
    rw [recordKeyType, recordKeyTypeVal]
    exact ((deep_nonAnyType t).avoiding _).mono (by simp <;> omega)

theorem deep_unionMember : ∀ m : UnionMember, Deep ((unionMemberVal m).depth - 11) (unionMember m)
  | .single as t => by
    rw [unionMember, unionMemberVal]
    exact ((deep_attributes as).seq (deep_nonAnyType t)).mono (by
      have := depth_pos (attrsVal as)
      simp <;> omega)
  | .union ms q => by
    rw [unionMember, unionMemberVal]
    exact ((((deep_unionMembers ms).sepBy (.tok c!"or")).parens).seq (Deep.flag (punctVal .qMark) (by simp) q _)).mono (by
      simp <;> omega)

theorem deep_unionMembers : ∀ ms : List UnionMember, Deeps 11 (unionMembers ms) (unionMemberVals ms)
  | [] => by
    rw [unionMembers, unionMemberVals]
    exact .nil
  | m :: ms => by
    rw [unionMembers, unionMemberVals]
    exact .cons (deep_unionMember m) (deep_unionMembers ms)

theorem deep_returnType : ∀ t : ReturnType, Deep ((returnTypeVal t).depth - 9) (returnType t)
  | .undefined => by
    rw [returnType, returnTypeVal]
    exact (Deep.tok _).mono (by simp <;> omega)
  | .type t => by
    rw [returnType, returnTypeVal]
    exact ((deep_type t).avoiding _).mono (by simp <;> omega)

theorem deep_extAttr : ∀ a : ExtAttr, Deep ((extAttrVal a).depth - 5) (extAttr a)
  | .argList i args => by
    rw [extAttr, extAttrVal]
    exact ((Deep.name i).seq ((deep_arguments args).sepBy (.tok c!",")).parens).mono (by simp <;> omega)
  | .namedArgList l r args => by
    rw [extAttr, extAttrVal]
    exact ((Deep.name l).seq ((Deep.tok _).seq ((Deep.name r).seq ((deep_arguments args).sepBy (.tok c!",")).parens))).mono (by
      simp <;> omega)
  | .identList i is => by
    rw [extAttr, extAttrVal]
    exact ((Deep.name i).seq ((Deep.tok _).seq ((Deeps.map (d := 2) (f := identVal) (fun a => (Deep.name a).mono (by simp <;> omega))
      is).sepBy (.tok c!",")).parens)).mono (by simp <;> omega)
  | .ident l r => by
    rw [extAttr, extAttrVal]
    exact ((Deep.name l).seq ((Deep.tok _).seq (deep_identifierOrString r))).mono (by simp <;> omega)
  | .wildcard l => by
    rw [extAttr, extAttrVal]
    exact ((Deep.name l).seq ((Deep.tok _).seq (.tok _))).mono (by simp <;> omega)
  | .noArgs i => by
    rw [extAttr, extAttrVal]
    exact (Deep.name i).mono (by simp <;> omega)

theorem deep_extAttrs : ∀ as : List ExtAttr, Deeps 5 (extAttrs as) (extAttrVals as)
  | [] => by
    rw [extAttrs, extAttrVals]
    exact .nil
  | a :: as => by
    rw [extAttrs, extAttrVals]
    exact .cons ((deep_extAttr a).mono (by omega)) (deep_extAttrs as)

theorem deep_attributes : ∀ as : Option (List ExtAttr), Deep ((attrsVal as).depth - 9) (attributes as)
  | none => by
    rw [attributes, attrsVal]
    exact Deep.eps
  | some as => by
    rw [attributes, attrsVal]
    exact ((deep_extAttrs as).sepBy (.tok c!",")).brackets.mono (by simp <;> omega)

theorem deep_attributedType : ∀ t : AttributedType, Deep ((attributedTypeVal t).depth - 10) (attributedType t)
  | .mk as t => by
    rw [attributedType, attributedTypeVal]
    exact ((deep_attributes as).seq (deep_type t)).mono (by simp <;> omega)

theorem deep_namedAttributed : ∀ (t : AttributedType) (i : Str),
    Deep ((attributedTypeVal t).depth - 10) (namedAttributed t i)
  | .mk as t, i => by
    rw [namedAttributed, attributedTypeVal]
    exact ((deep_attributes as).seq ((deep_type t).named i)).mono (by simp <;> omega)

theorem deep_argument : ∀ a : Argument, Deep ((argumentVal a).depth - 12) (argument a)
  | .single as true t i d => by
    rw [argument, argumentVal]
    simp only [if_true]
    exact ((deep_attributes as).seq ((Deep.tok _).seq ((deep_namedAttributed t i).seq (deep_default d)))).mono (by
      simp [flagVal] <;> omega)
  | .single as false t i d => by
    rw [argument, argumentVal]
    simp only [Bool.false_eq_true, if_false]
    refine ((deep_attributes as).seq (n := max ((attributedTypeVal t).depth - 10) ((optVal defaultVal d).depth - 6)) ?_).mono
      (by simp [flagVal] <;> omega)
    rintro ls ⟨rfl, hl⟩
    simpa [optVal] using ((deep_namedAttributed t i).avoiding _) ls hl
  | .variadic as t i => by
    rw [argument, argumentVal]
    exact ((deep_attributes as).seq ((deep_type t).seq ((Deep.tok _).seq (.name i)))).mono (by simp <;> omega)

theorem deep_arguments : ∀ as : List Argument, Deeps 12 (arguments as) (argumentVals as)
  | [] => by
    rw [arguments, argumentVals]
    exact .nil
  | a :: as => by
    rw [arguments, argumentVals]
    exact .cons (deep_argument a) (deep_arguments as)

end

theorem deep_argumentList (args : List Argument) : Deep ((argsVal args).depth - 3) (argumentList args) :=
  ((deep_arguments args).sepBy (.tok c!",")).parens.mono (by simp [argsVal] <;> omega)

theorem deep_optArgumentList (args : Option (List Argument)) :
    Deep ((optVal argsVal args).depth - 4) (optArgumentList args) := by
  cases args with
  | none => exact .eps
  | some args => exact (deep_argumentList args).mono (by simp [optVal] <;> omega)

theorem deep_constType (t : ConstType) : Deep ((constTypeVal t).depth - 6) (constType t) := by
  cases t with
  | integer t q => exact ((deep_integerType t).seq (Deep.flag (punctVal .qMark) (by simp) q _)).mono (by
      have := depth_pos (flagVal (punctVal .qMark) q)
      simp [constTypeVal] <;> omega)
  | floatingPoint t q => exact ((deep_floatingPointType t).seq (Deep.flag (punctVal .qMark) (by simp) q _)).mono (by
      have := depth_pos (flagVal (punctVal .qMark) q)
      simp [constTypeVal] <;> omega)
  | identifier i q => exact ((Deep.typeName _ i).seq (Deep.flag (punctVal .qMark) (by simp) q _)).mono (by
      simp [constTypeVal] <;> omega)
  | _ q => exact ((Deep.tok _).seq (Deep.flag (punctVal .qMark) (by simp) q _)).mono (by
      simp [constTypeVal] <;> omega)

/-! ## Members -/

theorem deep_returnNamed (r : ReturnType) (i : Option Str) :
    Deep (max ((returnTypeVal r).depth - 9) ((optVal identVal i).depth - 3)) (returnNamed r i) := by
  cases i with
  | none => exact (deep_returnType r).mono (by simp [optVal] <;> omega)
  | some i => exact ((deep_returnType r).named i).mono (by simp [optVal] <;> omega)

theorem deep_constMember (n : Str) (m : ConstMember) : Deep ((constVal n m).depth - 10) (constMember m) :=
  ((deep_attributes _).seq ((Deep.tok _).seq (((deep_constType _).named _).seq ((Deep.tok _).seq
    ((deep_constValue _).seq (.tok _)))))).mono (by simp [constVal] <;> omega)

theorem deep_modifier (m : Option StringifierOrInheritOrStatic) :
    Deep ((optVal stringifierOrInheritOrStaticVal m).depth - 3) (modifier m) := by
  rcases m with - | (_ | _ | _)
  · exact .eps
  all_goals exact (Deep.tok _).mono (by simp [optVal, stringifierOrInheritOrStaticVal] <;> omega)

theorem deep_attributeInterfaceMember (m : AttributeInterfaceMember) :
    Deep ((attributeInterfaceMemberVal m).depth - 11) (attributeInterfaceMember m) :=
  ((deep_attributes _).seq ((deep_modifier _).seq ((Deep.flag (kwVal .readOnly) (by simp) _ _).seq ((Deep.tok _).seq
    ((deep_namedAttributed _ _).seq (.tok _)))))).mono (by simp [attributeInterfaceMemberVal] <;> omega)

theorem deep_constructorInterfaceMember (m : ConstructorInterfaceMember) :
    Deep ((constructorInterfaceMemberVal m).depth - 10) (constructorInterfaceMember m) :=
  ((deep_attributes _).seq ((Deep.tok _).seq ((deep_argumentList _).seq (.tok _)))).mono (by
    simp [constructorInterfaceMemberVal] <;> omega)

theorem deep_modified {n : Nat} {A : Lang} (m : Option StringifierOrStatic) (h : Deep n A) :
    Deep (max ((optVal stringifierOrStaticVal m).depth - 3) n) (modified m A) := by
  rcases m with - | (_ | _)
  · exact (h.avoiding _).mono (by simp [optVal] <;> omega)
  all_goals exact ((Deep.tok _).seq h).mono (by simp [optVal, stringifierOrStaticVal] <;> omega)

theorem deep_specialised {n : Nat} {A : Lang} (m : Option Special) (h : Deep n A) :
    Deep (max ((optVal specialVal m).depth - 3) n) (specialised m A) := by
  rcases m with - | (_ | _ | _ | _)
  · exact (h.avoiding _).mono (by simp [optVal] <;> omega)
  all_goals exact ((Deep.tok _).seq h).mono (by simp [optVal, specialVal] <;> omega)

theorem depth_special (m : Option Special) : (optVal specialVal m).depth ≤ 3 := by
  rcases m with - | (_ | _ | _ | _) <;> simp [optVal, specialVal]

theorem depth_stringifierOrStatic (m : Option StringifierOrStatic) : (optVal stringifierOrStaticVal m).depth ≤ 3 := by
  rcases m with - | (_ | _) <;> simp [optVal, stringifierOrStaticVal]

theorem deep_operationInterfaceMember (m : OperationInterfaceMember) :
    Deep ((operationInterfaceMemberVal m).depth - 10) (operationInterfaceMember m) := by
  have h1 := depth_special m.special
  have h2 := depth_stringifierOrStatic m.modifier
  have h3 := deep_returnNamed m.returnType m.identifier
  refine ((deep_attributes _).seq ((deep_modified _ (deep_specialised _ (h3.seq ((deep_argumentList _).seq
    (.tok _))))).avoiding _)).mono ?_
  simp [operationInterfaceMemberVal, Nat.max_le, Nat.sub_le_iff_le_add]
  omega

theorem deep_typePair (p : AttributedType × AttributedType) : Deep ((attributedTypePairVal p).depth - 11) (typePair p) :=
  ((deep_attributedType _).seq ((Deep.tok _).seq (deep_attributedType _))).mono (by simp [attributedTypePairVal] <;> omega)

theorem deep_iterableInterfaceMember (m : IterableInterfaceMember) :
    Deep ((iterableInterfaceMemberVal m).depth - 11) (iterableInterfaceMember m) := by
  cases m
  · exact ((deep_attributes _).seq ((Deep.tok _).seq ((deep_attributedType _).angles.seq (.tok _)))).mono (by
      simp [iterableInterfaceMemberVal] <;> omega)
  · exact ((deep_attributes _).seq ((Deep.tok _).seq ((deep_typePair _).angles.seq (.tok _)))).mono (by
      simp [iterableInterfaceMemberVal] <;> omega)

theorem deep_asyncIterableInterfaceMember (m : AsyncIterableInterfaceMember) :
    Deep ((asyncIterableInterfaceMemberVal m).depth - 11) (asyncIterableInterfaceMember m) := by
  cases m
  · exact ((deep_attributes _).seq ((Deep.tok _).seq ((Deep.tok _).seq ((deep_attributedType _).angles.seq
      ((deep_optArgumentList _).seq (.tok _)))))).mono (by simp [asyncIterableInterfaceMemberVal] <;> omega)
  · exact ((deep_attributes _).seq ((Deep.tok _).seq ((Deep.tok _).seq ((deep_typePair _).angles.seq
      ((deep_optArgumentList _).seq (.tok _)))))).mono (by simp [asyncIterableInterfaceMemberVal] <;> omega)

theorem deep_maplikeInterfaceMember (m : MaplikeInterfaceMember) :
    Deep ((maplikeInterfaceMemberVal m).depth - 10) (maplikeInterfaceMember m) :=
  ((deep_attributes _).seq ((Deep.flag (kwVal .readOnly) (by simp) _ _).seq ((Deep.tok _).seq ((deep_typePair _).angles.seq
    (.tok _))))).mono (by simp [maplikeInterfaceMemberVal] <;> omega)

theorem deep_setlikeInterfaceMember (m : SetlikeInterfaceMember) :
    Deep ((setlikeInterfaceMemberVal m).depth - 10) (setlikeInterfaceMember m) :=
  ((deep_attributes _).seq ((Deep.flag (kwVal .readOnly) (by simp) _ _).seq ((Deep.tok _).seq
    ((deep_attributedType _).angles.seq (.tok _))))).mono (by simp [setlikeInterfaceMemberVal] <;> omega)

theorem deep_stringifierMember (m : StringifierMember) :
    Deep ((stringifierMemberVal m).depth - 10) (stringifierMember m) :=
  ((deep_attributes _).seq ((Deep.tok _).seq (.tok _))).mono (by simp [stringifierMemberVal] <;> omega)

theorem deep_interfaceMember (m : InterfaceMember) : Deep ((interfaceMemberVal m).depth - 12) (interfaceMember m) := by
  cases m with
  | const m => exact (deep_constMember c!"ConstMember" m).mono (by simp [interfaceMemberVal] <;> omega)
  | «attribute» m => exact (deep_attributeInterfaceMember m).mono (by simp [interfaceMemberVal] <;> omega)
  | constructor m => exact (deep_constructorInterfaceMember m).mono (by simp [interfaceMemberVal] <;> omega)
  | operation m => exact (deep_operationInterfaceMember m).mono (by simp [interfaceMemberVal] <;> omega)
  | iterable m => exact (deep_iterableInterfaceMember m).mono (by simp [interfaceMemberVal] <;> omega)
  | asyncIterable m => exact (deep_asyncIterableInterfaceMember m).mono (by simp [interfaceMemberVal] <;> omega)
  | maplike m => exact (deep_maplikeInterfaceMember m).mono (by simp [interfaceMemberVal] <;> omega)
  | setlike m => exact (deep_setlikeInterfaceMember m).mono (by simp [interfaceMemberVal] <;> omega)
  | stringifier m => exact (deep_stringifierMember m).mono (by simp [interfaceMemberVal] <;> omega)

theorem Deep.optWord {n : Nat} {A : Lang} (v : Val) (hv : v.depth = 1) (b : Bool) (w : Str) (h : Deep n A)
    (hw : Plain w := by decide) : Deep (max ((flagVal v b).depth - 2) n) (optWord b w A) := by
  cases b
  · exact (h.avoiding _).mono (by simp [flagVal] <;> omega)
  · exact ((Deep.tok w hw).seq h).mono (by simp [flagVal] <;> omega)

theorem deep_operationMixinMember (m : OperationMixinMember) :
    Deep ((operationMixinMemberVal m).depth - 10) (operationMixinMember m) :=
  ((deep_attributes _).seq (((deep_returnNamed _ _).seq ((deep_argumentList _).seq (.tok _))).optWord (kwVal .stringifier)
    (by simp) _ _)).mono (by simp [operationMixinMemberVal] <;> omega)

theorem deep_attributeMixinMember (m : AttributeMixinMember) :
    Deep ((attributeMixinMemberVal m).depth - 11) (attributeMixinMember m) :=
  ((deep_attributes _).seq ((Deep.flag (kwVal .stringifier) (by simp) _ _).seq ((Deep.flag (kwVal .readOnly) (by simp) _ _).seq
    ((Deep.tok _).seq ((deep_namedAttributed _ _).seq (.tok _)))))).mono (by simp [attributeMixinMemberVal] <;> omega)

theorem deep_mixinMember (m : MixinMember) : Deep ((mixinMemberVal m).depth - 12) (mixinMember m) := by
  cases m with
  | const m => exact (deep_constMember c!"ConstMember" m).mono (by simp [mixinMemberVal] <;> omega)
  | operation m => exact (deep_operationMixinMember m).mono (by simp [mixinMemberVal] <;> omega)
  | «attribute» m => exact (deep_attributeMixinMember m).mono (by simp [mixinMemberVal] <;> omega)
  | stringifier m => exact (deep_stringifierMember m).mono (by simp [mixinMemberVal] <;> omega)

theorem deep_operationNamespaceMember (m : OperationNamespaceMember) :
    Deep ((operationNamespaceMemberVal m).depth - 10) (operationNamespaceMember m) :=
  ((deep_attributes _).seq ((deep_returnNamed _ _).seq ((deep_argumentList _).seq (.tok _)))).mono (by
    simp [operationNamespaceMemberVal] <;> omega)

theorem deep_attributeNamespaceMember (m : AttributeNamespaceMember) :
    Deep ((attributeNamespaceMemberVal m).depth - 11) (attributeNamespaceMember m) :=
  ((deep_attributes _).seq ((Deep.tok _).seq ((Deep.tok _).seq ((deep_namedAttributed _ _).seq (.tok _))))).mono (by
    simp [attributeNamespaceMemberVal] <;> omega)

theorem deep_namespaceMember (m : NamespaceMember) : Deep ((namespaceMemberVal m).depth - 12) (namespaceMember m) := by
  cases m with
  | const m => exact (deep_constMember c!"ConstNamespaceMember" m).mono (by simp [namespaceMemberVal] <;> omega)
  | operation m => exact (deep_operationNamespaceMember m).mono (by simp [namespaceMemberVal] <;> omega)
  | «attribute» m => exact (deep_attributeNamespaceMember m).mono (by simp [namespaceMemberVal] <;> omega)

theorem deep_dictionaryMember (m : DictionaryMember) : Deep ((dictionaryMemberVal m).depth - 10) (dictionaryMember m) :=
  ((deep_attributes _).seq ((((deep_type _).named _).seq ((deep_default _).seq (.tok _))).optWord (kwVal .required)
    (by simp) _ _)).mono (by simp [dictionaryMemberVal] <;> omega)

/-! ## Definitions -/

theorem deep_inheritance (i : Option Str) : Deep ((optVal inheritanceVal i).depth - 4) (inheritance i) := by
  cases i with
  | none => exact .eps
  | some i => exact ((Deep.tok _).seq (.name i)).mono (by simp [optVal, inheritanceVal] <;> omega)

theorem deep_body {α : Type} {L : α → Lang} {f : α → Val} {d : Nat} (h : ∀ a, Deep ((f a).depth - d) (L a)) (ms : List α) :
    Deep ((bodyVal f ms).depth - (d + 2)) (body L ms) :=
  ((Deep.concat h ms).braces.seq (.tok _)).mono (by simp [bodyVal] <;> omega)

theorem deep_enumValues (vs : List Str) : Deep (Val.depths (vs.map stringVal) - 2) (enumValues vs) := by
  rintro ls ⟨-, b, h⟩
  exact (((Deeps.map (d := 2) (f := stringVal) (fun a => (Deep.string a).mono (by simp)) vs).sepBy
    (.tok c!",")).seq (Deep.flag (punctVal .comma) (by simp) b _)).mono (Nat.le_max_left _ _) ls h

theorem deep_definition (d : Definition) : Deep ((definitionVal d).depth - 16) (definition d) := by
  cases d with
  | callback as i r args =>
    exact ((deep_attributes _).seq ((Deep.tok _).seq ((Deep.name _).seq ((Deep.tok _).seq ((deep_returnType _).seq
      ((deep_argumentList _).seq (.tok _))))))).mono (by simp [definitionVal] <;> omega)
  | callbackInterface as i inh ms =>
    exact ((deep_attributes _).seq ((Deep.tok _).seq ((Deep.tok _).seq ((Deep.name _).seq ((deep_inheritance _).seq
      (deep_body deep_interfaceMember ms)))))).mono (by simp [definitionVal] <;> omega)
  | interface as i inh ms =>
    exact ((deep_attributes _).seq ((Deep.tok _).seq ((Deep.name _).seq ((deep_inheritance _).seq
      (deep_body deep_interfaceMember ms))))).mono (by simp [definitionVal] <;> omega)
  | interfaceMixin as i ms =>
    exact ((deep_attributes _).seq ((Deep.tok _).seq ((Deep.tok _).seq ((Deep.name _).seq
      (deep_body deep_mixinMember ms))))).mono (by simp [definitionVal] <;> omega)
  | «namespace» as i ms =>
    exact ((deep_attributes _).seq ((Deep.tok _).seq ((Deep.name _).seq
      (deep_body deep_namespaceMember ms)))).mono (by simp [definitionVal] <;> omega)
  | dictionary as i inh ms =>
    exact ((deep_attributes _).seq ((Deep.tok _).seq ((Deep.name _).seq ((deep_inheritance _).seq
      (deep_body deep_dictionaryMember ms))))).mono (by simp [definitionVal] <;> omega)
  | partialInterface as i ms =>
    exact ((deep_attributes _).seq ((Deep.tok _).seq ((Deep.tok _).seq ((Deep.name _).seq
      (deep_body deep_interfaceMember ms))))).mono (by simp [definitionVal] <;> omega)
  | partialInterfaceMixin as i ms =>
    exact ((deep_attributes _).seq ((Deep.tok _).seq ((Deep.tok _).seq ((Deep.tok _).seq ((Deep.name _).seq
      (deep_body deep_mixinMember ms)))))).mono (by simp [definitionVal] <;> omega)
  | partialDictionary as i ms =>
    exact ((deep_attributes _).seq ((Deep.tok _).seq ((Deep.tok _).seq ((Deep.name _).seq
      (deep_body deep_dictionaryMember ms))))).mono (by simp [definitionVal] <;> omega)
  | partialNamespace as i ms =>
    exact ((deep_attributes _).seq ((Deep.tok _).seq ((Deep.tok _).seq ((Deep.name _).seq
      (deep_body deep_namespaceMember ms))))).mono (by simp [definitionVal] <;> omega)
  | enum as i vs =>
    exact ((deep_attributes _).seq ((Deep.tok _).seq ((Deep.name _).seq ((deep_enumValues vs).braces.seq
      (.tok _))))).mono (by simp [definitionVal] <;> omega)
  | typedef as t i =>
    exact ((deep_attributes _).seq ((Deep.tok _).seq ((deep_namedAttributed _ _).seq (.tok _)))).mono (by
      simp [definitionVal] <;> omega)
  | includesStatement as l r =>
    exact ((deep_attributes _).seq (((Deep.name _).avoiding _).seq ((Deep.tok _).seq ((Deep.name _).seq
      (.tok _))))).mono (by simp [definitionVal] <;> omega)
  | implements as l r =>
    exact ((deep_attributes _).seq (((Deep.name _).avoiding _).seq ((Deep.tok _).seq ((Deep.name _).seq
      (.tok _))))).mono (by simp [definitionVal] <;> omega)

theorem deep_definitions (ds : List Definition) : Deep (Val.depths (ds.map definitionVal) - 16) (definitions ds) :=
  Deep.concat deep_definition ds

end Verif.Depths
