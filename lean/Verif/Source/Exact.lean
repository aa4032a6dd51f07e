import Verif.Source.ExactItems

/-!
# Every value is that of an AST

Every value of a type of the crate whose parts are `Legal` is the value of an AST that can be printed.
-/

namespace Verif.Source.Exact
open Spec

theorem ident (n : Nat) : Onto n (.path0 c!"Identifier") identVal WfName := by
  intro v g
  obtain ⟨w, rfl, ha, l⟩ := g.newtype mIdentifier
  obtain ⟨s, rfl⟩ := str_inv ha
  exact ⟨s, rfl, l.name _ rfl⟩

theorem string (n : Nat) : Onto n (.path0 c!"StringLit") stringVal WfString := by
  intro v g
  obtain ⟨w, rfl, ha, l⟩ := g.newtype mStringLit
  obtain ⟨s, rfl⟩ := str_inv ha
  exact ⟨s, rfl, l.string _ rfl⟩

theorem dec (n : Nat) : Onto n (.path0 c!"DecLit") decVal Regex.dec.Matches := by
  intro v g
  obtain ⟨w, rfl, ha, l⟩ := g.newtype mDecLit
  obtain ⟨s, rfl⟩ := str_inv ha
  exact ⟨s, rfl, l.dec _ rfl⟩

theorem hex (n : Nat) : Onto n (.path0 c!"HexLit") hexVal Regex.hex.Matches := by
  intro v g
  obtain ⟨w, rfl, ha, l⟩ := g.newtype mHexLit
  obtain ⟨s, rfl⟩ := str_inv ha
  exact ⟨s, rfl, l.hex _ rfl⟩

theorem oct (n : Nat) : Onto n (.path0 c!"OctLit") octVal Regex.oct.Matches := by
  intro v g
  obtain ⟨w, rfl, ha, l⟩ := g.newtype mOctLit
  obtain ⟨s, rfl⟩ := str_inv ha
  exact ⟨s, rfl, l.oct _ rfl⟩

theorem floatValue (n : Nat) : Onto n (.path0 c!"FloatValueLit") floatValueVal Regex.float.Matches := by
  intro v g
  obtain ⟨w, rfl, ha, l⟩ := g.newtype mFloatValueLit
  obtain ⟨s, rfl⟩ := str_inv ha
  exact ⟨s, rfl, l.float _ rfl⟩

theorem boolean (n : Nat) : Onto n (.path0 c!"BooleanLit") booleanVal fun _ => True := by
  intro v g
  obtain ⟨w, rfl, ha, l⟩ := g.newtype mBooleanLit
  obtain ⟨s, rfl⟩ := bool_inv ha
  exact ⟨s, rfl, trivial⟩

theorem emptyArray {n : Nat} {v : Val} (g : Good n (.path0 c!"EmptyArrayLit") v) : v = emptyArrayVal := by
  obtain ⟨_, rfl, ⟨w0, _, rfl, g0, w1, _, rfl, g1, rfl⟩, l⟩ := g.struct mEmptyArrayLit
  obtain rfl := punct .openBracket g0
  obtain rfl := punct .closeBracket g1
  rfl

theorem emptyDictionary {n : Nat} {v : Val} (g : Good n (.path0 c!"EmptyDictionaryLit") v) : v = emptyDictionaryVal := by
  obtain ⟨_, rfl, ⟨w0, _, rfl, g0, w1, _, rfl, g1, rfl⟩, l⟩ := g.struct mEmptyDictionaryLit
  obtain rfl := punct .openBrace g0
  obtain rfl := punct .closeBrace g1
  rfl

theorem integerLit (n : Nat) : Onto n (.path0 c!"IntegerLit") integerLitVal WfInteger := by
  intro v g
  rcases g.enum mIntegerLit with ⟨w, rfl, h⟩ | ⟨w, rfl, h⟩ | ⟨w, rfl, h⟩ | h
  · obtain ⟨a, rfl, y⟩ := dec _ _ h
    exact ⟨.dec a, rfl, y⟩
  · obtain ⟨a, rfl, y⟩ := hex _ _ h
    exact ⟨.hex a, rfl, y⟩
  · obtain ⟨a, rfl, y⟩ := oct _ _ h
    exact ⟨.oct a, rfl, y⟩
  · exact h.elim

theorem floatLit (n : Nat) : Onto n (.path0 c!"FloatLit") floatLitVal WfFloat := by
  intro v g
  rcases g.enum mFloatLit with ⟨w, rfl, h⟩ | ⟨w, rfl, h⟩ | ⟨w, rfl, h⟩ | ⟨w, rfl, h⟩ | h
  · obtain ⟨a, rfl, y⟩ := floatValue _ _ h
    exact ⟨.value a, rfl, y⟩
  · obtain rfl := kw .negInfinity h
    exact ⟨.negInfinity, rfl, trivial⟩
  · obtain rfl := kw .infinity h
    exact ⟨.infinity, rfl, trivial⟩
  · obtain rfl := kw .nan h
    exact ⟨.nan, rfl, trivial⟩
  · exact h.elim

theorem defaultValue (n : Nat) : Onto n (.path0 c!"DefaultValue") defaultValueVal WfDefaultValue := by
  intro v g
  rcases g.enum mDefaultValue with ⟨w, rfl, h⟩ | ⟨w, rfl, h⟩ | ⟨w, rfl, h⟩ | ⟨w, rfl, h⟩ | ⟨w, rfl, h⟩ | ⟨w, rfl, h⟩ | ⟨w, rfl, h⟩ | h
  · obtain ⟨a, rfl, y⟩ := boolean _ _ h
    exact ⟨.boolean a, rfl, y⟩
  · obtain rfl := emptyArray h
    exact ⟨.emptyArray, rfl, trivial⟩
  · obtain rfl := emptyDictionary h
    exact ⟨.emptyDictionary, rfl, trivial⟩
  · obtain ⟨a, rfl, y⟩ := floatLit _ _ h
    exact ⟨.float a, rfl, y⟩
  · obtain ⟨a, rfl, y⟩ := integerLit _ _ h
    exact ⟨.integer a, rfl, y⟩
  · obtain rfl := kw .null h
    exact ⟨.null, rfl, trivial⟩
  · obtain ⟨a, rfl, y⟩ := string _ _ h
    exact ⟨.string a, rfl, y⟩
  · exact h.elim

theorem constValue (n : Nat) : Onto n (.path0 c!"ConstValue") constValueVal WfConstValue := by
  intro v g
  rcases g.enum mConstValue with ⟨w, rfl, h⟩ | ⟨w, rfl, h⟩ | ⟨w, rfl, h⟩ | ⟨w, rfl, h⟩ | h
  · obtain ⟨a, rfl, y⟩ := boolean _ _ h
    exact ⟨.boolean a, rfl, y⟩
  · obtain ⟨a, rfl, y⟩ := floatLit _ _ h
    exact ⟨.float a, rfl, y⟩
  · obtain ⟨a, rfl, y⟩ := integerLit _ _ h
    exact ⟨.integer a, rfl, y⟩
  · obtain rfl := kw .null h
    exact ⟨.null, rfl, trivial⟩
  · exact h.elim

theorem default (n : Nat) : Onto n (.path0 c!"Default") defaultVal WfDefaultValue := by
  intro v g
  obtain ⟨_, rfl, ⟨w0, _, rfl, g0, w1, _, rfl, g1, rfl⟩, l⟩ := g.struct mDefault
  obtain rfl := punct .assign g0
  obtain ⟨a1, rfl, x1⟩ := defaultValue _ _ g1
  exact ⟨a1, rfl, x1⟩

theorem optDefault (n : Nat) : Onto n (.path1 c!"Option" (.path0 c!"Default")) (optVal defaultVal) WfDefault := by
  intro v g
  obtain ⟨o, rfl, ha⟩ := opt (default n) v g
  refine ⟨o, rfl, ?_⟩
  cases o with
  | none => trivial
  | some d => exact ha d rfl

theorem optIdent (n : Nat) : Onto n (.path1 c!"Option" (.path0 c!"Identifier")) (optVal identVal) WfOptName := by
  intro v g
  obtain ⟨o, rfl, ha⟩ := opt (ident n) v g
  refine ⟨o, rfl, ?_⟩
  cases o with
  | none => trivial
  | some d => exact ha d rfl

theorem idOrString (n : Nat) : Onto n (.path0 c!"IdentifierOrString") identifierOrStringVal WfIdentifierOrString := by
  intro v g
  rcases g.enum mIdentifierOrString with ⟨w, rfl, h⟩ | ⟨w, rfl, h⟩ | h
  · obtain ⟨a, rfl, y⟩ := ident _ _ h
    exact ⟨.identifier a, rfl, y⟩
  · obtain ⟨a, rfl, y⟩ := string _ _ h
    exact ⟨.string a, rfl, y⟩
  · exact h.elim

theorem longLong {n : Nat} {v : Val} (g : Good n (.path2 c!"(,)" (.path0 c!"Long") (.path0 c!"Long")) v) :
    v = .pair (kwVal .long) (kwVal .long) := by
  obtain ⟨w, x, rfl, g1, g2⟩ := pair_inv g
  obtain rfl := kw .long g1
  obtain rfl := kw .long g2
  rfl

theorem asyncIterable {n : Nat} {v : Val} (g : Good n (.path2 c!"(,)" (.path0 c!"Async") (.path0 c!"Iterable")) v) :
    v = .pair (kwVal .async) (kwVal .iterable) := by
  obtain ⟨w, x, rfl, g1, g2⟩ := pair_inv g
  obtain rfl := kw .async g1
  obtain rfl := kw .iterable g2
  rfl

theorem integerType (n : Nat) : Onto n (.path0 c!"IntegerType") integerTypeVal fun _ => True := by
  intro v g
  rcases g.enum mIntegerType with ⟨w, rfl, h⟩ | ⟨w, rfl, h⟩ | ⟨w, rfl, h⟩ | h
  · obtain ⟨_, rfl, ⟨w0, _, rfl, g0, w1, _, rfl, g1, rfl⟩, l⟩ := h.struct mLongLongType
    obtain ⟨a0, rfl⟩ := kwFlag .unsigned g0
    obtain rfl := longLong g1
    exact ⟨.longLong a0, rfl, trivial⟩
  · obtain ⟨_, rfl, ⟨w0, _, rfl, g0, w1, _, rfl, g1, rfl⟩, l⟩ := h.struct mLongType
    obtain ⟨a0, rfl⟩ := kwFlag .unsigned g0
    obtain rfl := kw .long g1
    exact ⟨.long a0, rfl, trivial⟩
  · obtain ⟨_, rfl, ⟨w0, _, rfl, g0, w1, _, rfl, g1, rfl⟩, l⟩ := h.struct mShortType
    obtain ⟨a0, rfl⟩ := kwFlag .unsigned g0
    obtain rfl := kw .short g1
    exact ⟨.short a0, rfl, trivial⟩
  · exact h.elim

theorem floatingPointType (n : Nat) : Onto n (.path0 c!"FloatingPointType") floatingPointTypeVal fun _ => True := by
  intro v g
  rcases g.enum mFloatingPointType with ⟨w, rfl, h⟩ | ⟨w, rfl, h⟩ | h
  · obtain ⟨_, rfl, ⟨w0, _, rfl, g0, w1, _, rfl, g1, rfl⟩, l⟩ := h.struct mFloatType
    obtain ⟨a0, rfl⟩ := kwFlag .unrestricted g0
    obtain rfl := kw .float g1
    exact ⟨.float a0, rfl, trivial⟩
  · obtain ⟨_, rfl, ⟨w0, _, rfl, g0, w1, _, rfl, g1, rfl⟩, l⟩ := h.struct mDoubleType
    obtain ⟨a0, rfl⟩ := kwFlag .unrestricted g0
    obtain rfl := kw .double g1
    exact ⟨.double a0, rfl, trivial⟩
  · exact h.elim

/-! ## Types, attributes and arguments, by induction on the size -/

structure Block (n : Nat) : Prop where
  attr : Onto n (.path0 c!"ExtendedAttribute") extAttrVal WfExtAttr
  arg : Onto n (.path0 c!"Argument") argumentVal WfArgument
  type : Onto n (.path0 c!"Type") typeVal WfType
  ret : Onto n (.path0 c!"ReturnType") returnTypeVal WfReturnType
  key : Onto n (.path0 c!"RecordKeyType") recordKeyTypeVal WfRecordKeyType
  member : Onto n (.path0 c!"UnionMemberType") unionMemberVal WfUnionMember

variable {n : Nat}

theorem attrs (b : Block n) : Onto (n + 1) (.path1 c!"Option" (.path0 c!"ExtendedAttributeList")) attrsVal WfAttributes := by
  intro v g
  rcases option_inv g with rfl | ⟨w, rfl, h⟩
  · exact ⟨none, rfl, trivial⟩
  · obtain ⟨w, rfl, ha⟩ := bracket_inv (h.alias mExtendedAttributeList)
    obtain ⟨vs, rfl, hb⟩ := list_inv (fun _ => punct .comma) ha
    obtain ⟨as, rfl, w⟩ := all b.attr hb
    exact ⟨some as, by simp [attrsVal, extAttrVals_eq], (wfExtAttrs_iff as).2 w⟩

theorem args (b : Block n) : Onto (n + 1) (.path1 c!"Parenthesized" (.path0 c!"ArgumentList")) argsVal WfArguments := by
  intro v g
  obtain ⟨w, rfl, ha⟩ := paren_inv g
  obtain ⟨vs, rfl, hb⟩ := list_inv (fun _ => punct .comma) (ha.alias mArgumentList)
  obtain ⟨as, rfl, w⟩ := all b.arg hb
  exact ⟨as, by simp [argsVal, argumentVals_eq], (wfArguments_iff as).2 w⟩

theorem idents : Onto n (.path1 c!"Parenthesized" (.path0 c!"IdentifierList"))
    (fun l : List Str => parenVal (punctuatedVal (punctVal .comma) (l.map identVal))) fun l => ∀ j ∈ l, WfName j := by
  intro v g
  obtain ⟨w, rfl, ha⟩ := paren_inv (g.le (Nat.le_succ n))
  obtain ⟨vs, rfl, hb⟩ := list_inv (fun _ => punct .comma) (ha.alias mIdentifierList)
  obtain ⟨as, rfl, w⟩ := all (ident n) hb
  exact ⟨as, rfl, w⟩

theorem union (b : Block n) : Onto (n + 1) (.path0 c!"UnionType")
    (fun ms => parenVal (punctuatedVal (kwVal .or) (unionMemberVals ms))) WfUnionMembers := by
  intro v g
  obtain ⟨w, rfl, ha⟩ := paren_inv (g.alias mUnionType)
  obtain ⟨vs, rfl, hb⟩ := list_inv (fun _ => kw .or) ha
  obtain ⟨as, rfl, w⟩ := all b.member hb
  exact ⟨as, by simp [unionMemberVals_eq], (wfUnionMembers_iff as).2 w⟩

theorem genericType (b : Block n) : Onto (n + 1) (.path1 c!"Generics" (.path1 c!"Box" (.path0 c!"Type")))
    (fun t => genericsVal (.box (typeVal t))) WfType := by
  intro v g
  obtain ⟨w, rfl, ha⟩ := generics_inv g
  obtain ⟨w, rfl, hb⟩ := box_inv ha
  obtain ⟨a, rfl, w⟩ := b.type _ hb
  exact ⟨a, rfl, w⟩

theorem genericRet (b : Block n) : Onto (n + 1) (.path1 c!"Generics" (.path1 c!"Box" (.path0 c!"ReturnType")))
    (fun t => genericsVal (.box (returnTypeVal t))) WfReturnType := by
  intro v g
  obtain ⟨w, rfl, ha⟩ := generics_inv g
  obtain ⟨w, rfl, hb⟩ := box_inv ha
  obtain ⟨a, rfl, w⟩ := b.ret _ hb
  exact ⟨a, rfl, w⟩

theorem genericRecord (b : Block n) : Onto (n + 1)
    (.path1 c!"Generics" (.path3 c!"(,,)" (.path1 c!"Box" (.path0 c!"RecordKeyType")) (.path0 c!"Comma") (.path1 c!"Box" (.path0 c!"Type"))))
    (fun p : RecordKeyType × Ty => genericsVal (.triple (.box (recordKeyTypeVal p.1)) (punctVal .comma) (.box (typeVal p.2))))
    fun p => WfRecordKeyType p.1 ∧ WfType p.2 := by
  intro v g
  obtain ⟨w, rfl, ha⟩ := generics_inv g
  obtain ⟨w, x, y, rfl, h1, h2, h3⟩ := triple_inv ha
  obtain ⟨w, rfl, k1⟩ := box_inv h1
  obtain ⟨y, rfl, k3⟩ := box_inv h3
  obtain ⟨a, rfl, z⟩ := b.key _ k1
  obtain rfl := punct .comma h2
  obtain ⟨c, rfl, z'⟩ := b.type _ k3
  exact ⟨(a, c), rfl, z, z'⟩

theorem nonAny (b : Block n) : Onto (n + 1) (.path0 c!"NonAnyType") nonAnyTypeVal WfNonAnyType := by
  intro v g
  rcases g.enum mNonAnyType with ⟨w, rfl, h⟩ | ⟨w, rfl, h⟩ | ⟨w, rfl, h⟩ | ⟨w, rfl, h⟩ | ⟨w, rfl, h⟩ | ⟨w, rfl, h⟩ | ⟨w, rfl, h⟩ | ⟨w, rfl, h⟩ | ⟨w, rfl, h⟩ | ⟨w, rfl, h⟩ | ⟨w, rfl, h⟩ | ⟨w, rfl, h⟩ | ⟨w, rfl, h⟩ | ⟨w, rfl, h⟩ | ⟨w, rfl, h⟩ | ⟨w, rfl, h⟩ | ⟨w, rfl, h⟩ | ⟨w, rfl, h⟩ | ⟨w, rfl, h⟩ | ⟨w, rfl, h⟩ | ⟨w, rfl, h⟩ | ⟨w, rfl, h⟩ | ⟨w, rfl, h⟩ | ⟨w, rfl, h⟩ | ⟨w, rfl, h⟩ | ⟨w, rfl, h⟩ | ⟨w, rfl, h⟩ | ⟨w, rfl, h⟩ | ⟨w, rfl, h⟩ | h
  · obtain ⟨_, rfl, ⟨w0, _, rfl, g0, w1, _, rfl, g1, rfl⟩, l⟩ := h.struct mPromiseType
    obtain rfl := kw .promise g0
    obtain ⟨a1, rfl, x1⟩ := genericRet b _ g1
    exact ⟨.promise a1, rfl, x1⟩
  · obtain ⟨w, q, rfl, ha⟩ := null_inv h
    obtain ⟨a, rfl, y⟩ := integerType _ _ ha
    exact ⟨.integer a q, rfl, trivial⟩
  · obtain ⟨w, q, rfl, hb⟩ := null_inv h
    obtain ⟨a, rfl, y⟩ := floatingPointType _ _ hb
    exact ⟨.floatingPoint a q, rfl, trivial⟩
  · obtain ⟨w, q, rfl, hc⟩ := null_inv h
    obtain rfl := kw .boolean hc
    exact ⟨.builtin .boolean q, rfl, trivial⟩
  · obtain ⟨w, q, rfl, hd⟩ := null_inv h
    obtain rfl := kw .byte hd
    exact ⟨.builtin .byte q, rfl, trivial⟩
  · obtain ⟨w, q, rfl, he⟩ := null_inv h
    obtain rfl := kw .octet he
    exact ⟨.builtin .octet q, rfl, trivial⟩
  · obtain ⟨w, q, rfl, hf⟩ := null_inv h
    obtain rfl := kw .byteString hf
    exact ⟨.builtin .byteString q, rfl, trivial⟩
  · obtain ⟨w, q, rfl, hg⟩ := null_inv h
    obtain rfl := kw .domString hg
    exact ⟨.builtin .domString q, rfl, trivial⟩
  · obtain ⟨w, q, rfl, hh⟩ := null_inv h
    obtain rfl := kw .usvString hh
    exact ⟨.builtin .usvString q, rfl, trivial⟩
  · obtain ⟨w, q, rfl, ha⟩ := null_inv h
    obtain ⟨_, rfl, ⟨w0, _, rfl, g0, w1, _, rfl, g1, rfl⟩, l⟩ := ha.struct mSequenceType
    obtain rfl := kw .sequence g0
    obtain ⟨a1, rfl, x1⟩ := genericType b _ g1
    exact ⟨.sequence a1 q, rfl, x1⟩
  · obtain ⟨w, q, rfl, hb⟩ := null_inv h
    obtain rfl := kw .object hb
    exact ⟨.builtin .object q, rfl, trivial⟩
  · obtain ⟨w, q, rfl, hc⟩ := null_inv h
    obtain rfl := kw .symbol hc
    exact ⟨.builtin .symbol q, rfl, trivial⟩
  · obtain ⟨w, q, rfl, hd⟩ := null_inv h
    obtain rfl := kw .error hd
    exact ⟨.builtin .error q, rfl, trivial⟩
  · obtain ⟨w, q, rfl, he⟩ := null_inv h
    obtain rfl := kw .arrayBuffer he
    exact ⟨.builtin .arrayBuffer q, rfl, trivial⟩
  · obtain ⟨w, q, rfl, hf⟩ := null_inv h
    obtain rfl := kw .dataView hf
    exact ⟨.builtin .dataView q, rfl, trivial⟩
  · obtain ⟨w, q, rfl, hg⟩ := null_inv h
    obtain rfl := kw .int8Array hg
    exact ⟨.builtin .int8Array q, rfl, trivial⟩
  · obtain ⟨w, q, rfl, hh⟩ := null_inv h
    obtain rfl := kw .int16Array hh
    exact ⟨.builtin .int16Array q, rfl, trivial⟩
  · obtain ⟨w, q, rfl, ha⟩ := null_inv h
    obtain rfl := kw .int32Array ha
    exact ⟨.builtin .int32Array q, rfl, trivial⟩
  · obtain ⟨w, q, rfl, hb⟩ := null_inv h
    obtain rfl := kw .uint8Array hb
    exact ⟨.builtin .uint8Array q, rfl, trivial⟩
  · obtain ⟨w, q, rfl, hc⟩ := null_inv h
    obtain rfl := kw .uint16Array hc
    exact ⟨.builtin .uint16Array q, rfl, trivial⟩
  · obtain ⟨w, q, rfl, hd⟩ := null_inv h
    obtain rfl := kw .uint32Array hd
    exact ⟨.builtin .uint32Array q, rfl, trivial⟩
  · obtain ⟨w, q, rfl, he⟩ := null_inv h
    obtain rfl := kw .uint8ClampedArray he
    exact ⟨.builtin .uint8ClampedArray q, rfl, trivial⟩
  · obtain ⟨w, q, rfl, hf⟩ := null_inv h
    obtain rfl := kw .float32Array hf
    exact ⟨.builtin .float32Array q, rfl, trivial⟩
  · obtain ⟨w, q, rfl, hg⟩ := null_inv h
    obtain rfl := kw .float64Array hg
    exact ⟨.builtin .float64Array q, rfl, trivial⟩
  · obtain ⟨w, q, rfl, hh⟩ := null_inv h
    obtain rfl := kw .arrayBufferView hh
    exact ⟨.builtin .arrayBufferView q, rfl, trivial⟩
  · obtain ⟨w, q, rfl, ha⟩ := null_inv h
    obtain rfl := kw .bufferSource ha
    exact ⟨.builtin .bufferSource q, rfl, trivial⟩
  · obtain ⟨w, q, rfl, hb⟩ := null_inv h
    obtain ⟨_, rfl, ⟨w0, _, rfl, g0, w1, _, rfl, g1, rfl⟩, l⟩ := hb.struct mFrozenArrayType
    obtain rfl := kw .frozenArray g0
    obtain ⟨a1, rfl, x1⟩ := genericType b _ g1
    exact ⟨.frozenArray a1 q, rfl, x1⟩
  · obtain ⟨w, q, rfl, hc⟩ := null_inv h
    obtain ⟨_, rfl, ⟨w0, _, rfl, g0, w1, _, rfl, g1, rfl⟩, l⟩ := hc.struct mRecordType
    obtain rfl := kw .record g0
    obtain ⟨a1, rfl, x1⟩ := genericRecord b _ g1
    exact ⟨.record a1.1 a1.2 q, rfl, x1⟩
  · obtain ⟨w, q, rfl, hd⟩ := null_inv h
    obtain ⟨a, rfl, y⟩ := ident _ _ hd
    exact ⟨.identifier a q, rfl, y⟩
  · exact h.elim

theorem single (b : Block n) : Onto (n + 1) (.path0 c!"SingleType") singleTypeVal WfSingleType := by
  intro v g
  rcases g.enum mSingleType with ⟨w, rfl, h⟩ | ⟨w, rfl, h⟩ | h
  · obtain rfl := kw .any h
    exact ⟨.any, rfl, trivial⟩
  · obtain ⟨a, rfl, y⟩ := nonAny b _ h
    exact ⟨.nonAny a, rfl, y⟩
  · exact h.elim

theorem type (b : Block n) : Onto (n + 1) (.path0 c!"Type") typeVal WfType := by
  intro v g
  rcases g.enum mType with ⟨w, rfl, h⟩ | ⟨w, rfl, h⟩ | h
  · obtain ⟨a, rfl, y⟩ := single b _ h
    exact ⟨.single a, rfl, y⟩
  · obtain ⟨w, q, rfl, ha⟩ := null_inv h
    obtain ⟨a, rfl, y⟩ := union b _ ha
    exact ⟨.union a q, rfl, y⟩
  · exact h.elim

theorem ret (b : Block n) : Onto (n + 1) (.path0 c!"ReturnType") returnTypeVal WfReturnType := by
  intro v g
  rcases g.enum mReturnType with ⟨w, rfl, h⟩ | ⟨w, rfl, h⟩ | h
  · obtain rfl := kw .undefined h
    exact ⟨.undefined, rfl, trivial⟩
  · obtain ⟨a, rfl, y⟩ := type b _ h
    exact ⟨.type a, rfl, y⟩
  · exact h.elim

theorem notString {t : NonAnyType} (h : Legal (recordKeyTypeVal (.nonAny t))) : ¬ IsStringType t := by
  cases t with
  | builtin b q =>
    have := h.key (builtinName b) _ rfl
    cases b <;> simp_all [IsStringType, builtinName]
  | _ => exact id

theorem key (b : Block n) : Onto (n + 1) (.path0 c!"RecordKeyType") recordKeyTypeVal WfRecordKeyType := by
  intro v g
  rcases g.enum mRecordKeyType with ⟨w, rfl, h⟩ | ⟨w, rfl, h⟩ | ⟨w, rfl, h⟩ | ⟨w, rfl, h⟩ | h
  · obtain rfl := kw .byteString h
    exact ⟨.byte, rfl, trivial⟩
  · obtain rfl := kw .domString h
    exact ⟨.dom, rfl, trivial⟩
  · obtain rfl := kw .usvString h
    exact ⟨.usv, rfl, trivial⟩
  · have l := g.here
    obtain ⟨a, rfl, y⟩ := nonAny b _ h
    exact ⟨.nonAny a, rfl, y, notString l⟩
  · exact h.elim

theorem member (b : Block n) : Onto (n + 1) (.path0 c!"UnionMemberType") unionMemberVal WfUnionMember := by
  intro v g
  rcases g.enum mUnionMemberType with ⟨w, rfl, h⟩ | ⟨w, rfl, h⟩ | h
  · obtain ⟨_, rfl, ⟨w0, _, rfl, g0, w1, _, rfl, g1, rfl⟩, l⟩ := h.struct mAttributedNonAnyType
    obtain ⟨a0, rfl, x0⟩ := attrs b _ g0
    obtain ⟨a1, rfl, x1⟩ := nonAny b _ g1
    exact ⟨.single a0 a1, rfl, ⟨x0, x1⟩⟩
  · obtain ⟨w, q, rfl, ha⟩ := null_inv h
    obtain ⟨a, rfl, y⟩ := union b _ ha
    exact ⟨.union a q, rfl, y⟩
  · exact h.elim

theorem attributedType (b : Block n) : Onto (n + 1) (.path0 c!"AttributedType") attributedTypeVal WfAttributedType := by
  intro v g
  obtain ⟨_, rfl, ⟨w0, _, rfl, g0, w1, _, rfl, g1, rfl⟩, l⟩ := g.struct mAttributedType
  obtain ⟨a0, rfl, x0⟩ := attrs b _ g0
  obtain ⟨a1, rfl, x1⟩ := type b _ g1
  exact ⟨.mk a0 a1, rfl, ⟨x0, x1⟩⟩

theorem argument_legal {as : Option (List ExtAttr)} {o : Bool} {t : AttributedType} {i : Str} {d : Option DefaultValue}
    (l : Legal (argumentVal (.single as o t i d)).payload) : o = false → d = none ∧ (as = none → hasAttributes t = false) := by
  rintro rfl
  have h1 := l.default _ rfl rfl
  have h2 := l.attributes _ rfl rfl
  obtain ⟨bs, t⟩ := t
  constructor
  · cases d with
    | none => rfl
    | some d => simp [argumentVal, Val.payload, Val.field, Env.get, optVal] at h1
  · rintro rfl
    have := h2 rfl
    cases bs with
    | none => rfl
    | some bs => simp [argumentVal, Val.payload, Val.field, Env.get, attributedTypeVal, attrsVal] at this

theorem argument (b : Block n) : Onto (n + 1) (.path0 c!"Argument") argumentVal WfArgument := by
  intro v g
  rcases g.enum mArgument with ⟨w, rfl, h⟩ | ⟨w, rfl, h⟩ | h
  · obtain ⟨_, rfl, ⟨w0, _, rfl, g0, w1, _, rfl, g1, w2, _, rfl, g2, w3, _, rfl, g3, w4, _, rfl, g4, rfl⟩, l⟩ := h.struct mSingleArgument
    obtain ⟨a0, rfl, x0⟩ := attrs b _ g0
    obtain ⟨a1, rfl⟩ := kwFlag .optional g1
    obtain ⟨a2, rfl, x2⟩ := attributedType b _ g2
    obtain ⟨a3, rfl, x3⟩ := ident _ _ g3
    obtain ⟨a4, rfl, x4⟩ := optDefault _ _ g4
    exact ⟨.single a0 a1 a2 a3 a4, rfl, x0, x2, x3, x4, argument_legal l⟩
  · obtain ⟨_, rfl, ⟨w0, _, rfl, g0, w1, _, rfl, g1, w2, _, rfl, g2, w3, _, rfl, g3, rfl⟩, l⟩ := h.struct mVariadicArgument
    obtain ⟨a0, rfl, x0⟩ := attrs b _ g0
    obtain ⟨a1, rfl, x1⟩ := type b _ g1
    obtain rfl := punct .ellipsis g2
    obtain ⟨a3, rfl, x3⟩ := ident _ _ g3
    exact ⟨.variadic a0 a1 a3, rfl, ⟨x0, x1, x3⟩⟩
  · exact h.elim

theorem extAttr (b : Block n) : Onto (n + 1) (.path0 c!"ExtendedAttribute") extAttrVal WfExtAttr := by
  intro v g
  rcases g.enum mExtendedAttribute with ⟨w, rfl, h⟩ | ⟨w, rfl, h⟩ | ⟨w, rfl, h⟩ | ⟨w, rfl, h⟩ | ⟨w, rfl, h⟩ | ⟨w, rfl, h⟩ | h
  · obtain ⟨_, rfl, ⟨w0, _, rfl, g0, w1, _, rfl, g1, rfl⟩, l⟩ := h.struct mExtendedAttributeArgList
    obtain ⟨a0, rfl, x0⟩ := ident _ _ g0
    obtain ⟨a1, rfl, x1⟩ := args b _ g1
    exact ⟨.argList a0 a1, rfl, ⟨x0, x1⟩⟩
  · obtain ⟨_, rfl, ⟨w0, _, rfl, g0, w1, _, rfl, g1, w2, _, rfl, g2, w3, _, rfl, g3, rfl⟩, l⟩ := h.struct mExtendedAttributeNamedArgList
    obtain ⟨a0, rfl, x0⟩ := ident _ _ g0
    obtain rfl := punct .assign g1
    obtain ⟨a2, rfl, x2⟩ := ident _ _ g2
    obtain ⟨a3, rfl, x3⟩ := args b _ g3
    exact ⟨.namedArgList a0 a2 a3, rfl, ⟨x0, x2, x3⟩⟩
  · obtain ⟨_, rfl, ⟨w0, _, rfl, g0, w1, _, rfl, g1, w2, _, rfl, g2, rfl⟩, l⟩ := h.struct mExtendedAttributeIdentList
    obtain ⟨a0, rfl, x0⟩ := ident _ _ g0
    obtain rfl := punct .assign g1
    obtain ⟨a2, rfl, x2⟩ := idents _ g2
    exact ⟨.identList a0 a2, rfl, ⟨x0, x2⟩⟩
  · obtain ⟨_, rfl, ⟨w0, _, rfl, g0, w1, _, rfl, g1, w2, _, rfl, g2, rfl⟩, l⟩ := h.struct mExtendedAttributeIdent
    obtain ⟨a0, rfl, x0⟩ := ident _ _ g0
    obtain rfl := punct .assign g1
    obtain ⟨a2, rfl, x2⟩ := idOrString _ _ g2
    exact ⟨.ident a0 a2, rfl, ⟨x0, x2⟩⟩
  · obtain ⟨_, rfl, ⟨w0, _, rfl, g0, w1, _, rfl, g1, w2, _, rfl, g2, rfl⟩, l⟩ := h.struct mExtendedAttributeWildCard
    obtain ⟨a0, rfl, x0⟩ := ident _ _ g0
    obtain rfl := punct .assign g1
    obtain rfl := punct .asterisk g2
    exact ⟨.wildcard a0, rfl, x0⟩
  · obtain ⟨w, rfl, ha, -⟩ := h.newtype mExtendedAttributeNoArgs
    obtain ⟨a, rfl, y⟩ := ident _ _ ha
    exact ⟨.noArgs a, rfl, y⟩
  · exact h.elim

theorem block : ∀ n, Block n
  | 0 => ⟨fun _ g => g.pos.elim, fun _ g => g.pos.elim, fun _ g => g.pos.elim, fun _ g => g.pos.elim, fun _ g => g.pos.elim,
    fun _ g => g.pos.elim⟩
  | n + 1 => have b := block n; ⟨extAttr b, argument b, type b, ret b, key b, member b⟩

theorem Onto.of_succ {α : Type} {T : RTy} {f : α → Val} {W : α → Prop} (h : Onto (n + 1) T f W) : Onto n T f W :=
  fun v g => h v (g.le (Nat.le_succ n))

/-! ## Members -/

theorem optArgs : Onto n (.path1 c!"Option" (.path1 c!"Parenthesized" (.path0 c!"ArgumentList"))) (optVal argsVal) WfOptArguments := by
  intro v g
  obtain ⟨o, rfl, ha⟩ := opt ((args (block n)).of_succ) v g
  refine ⟨o, rfl, ?_⟩
  cases o with
  | none => trivial
  | some d => exact ha d rfl

theorem genericAttributed : Onto n (.path1 c!"Generics" (.path0 c!"AttributedType")) (fun t => genericsVal (attributedTypeVal t))
    WfAttributedType := by
  intro v g
  obtain ⟨w, rfl, ha⟩ := generics_inv (g.le (Nat.le_succ n))
  obtain ⟨a, rfl, w⟩ := (attributedType (block n)).of_succ _ ha
  exact ⟨a, rfl, w⟩

theorem genericPair : Onto n
    (.path1 c!"Generics" (.path3 c!"(,,)" (.path0 c!"AttributedType") (.path0 c!"Comma") (.path0 c!"AttributedType")))
    (fun p => genericsVal (attributedTypePairVal p)) WfTypePair := by
  intro v g
  obtain ⟨w, rfl, ha⟩ := generics_inv (g.le (Nat.le_succ n))
  obtain ⟨w, x, y, rfl, h1, h2, h3⟩ := triple_inv ha
  obtain ⟨a, rfl, z⟩ := (attributedType (block n)).of_succ _ h1
  obtain rfl := punct .comma h2
  obtain ⟨c, rfl, z'⟩ := (attributedType (block n)).of_succ _ h3
  exact ⟨(a, c), rfl, z, z'⟩

theorem constType : Onto n (.path0 c!"ConstType") constTypeVal WfConstType := by
  intro v g
  rcases g.enum mConstType with ⟨w, rfl, h⟩ | ⟨w, rfl, h⟩ | ⟨w, rfl, h⟩ | ⟨w, rfl, h⟩ | ⟨w, rfl, h⟩ | ⟨w, rfl, h⟩ | h
  · obtain ⟨w, q, rfl, ha⟩ := null_inv h
    obtain ⟨a, rfl, y⟩ := integerType _ _ ha
    exact ⟨.integer a q, rfl, trivial⟩
  · obtain ⟨w, q, rfl, hb⟩ := null_inv h
    obtain ⟨a, rfl, y⟩ := floatingPointType _ _ hb
    exact ⟨.floatingPoint a q, rfl, trivial⟩
  · obtain ⟨w, q, rfl, hc⟩ := null_inv h
    obtain rfl := kw .boolean hc
    exact ⟨.boolean q, rfl, trivial⟩
  · obtain ⟨w, q, rfl, hd⟩ := null_inv h
    obtain rfl := kw .byte hd
    exact ⟨.byte q, rfl, trivial⟩
  · obtain ⟨w, q, rfl, he⟩ := null_inv h
    obtain rfl := kw .octet he
    exact ⟨.octet q, rfl, trivial⟩
  · obtain ⟨w, q, rfl, hf⟩ := null_inv h
    obtain ⟨a, rfl, y⟩ := ident _ _ hf
    exact ⟨.identifier a q, rfl, y⟩
  · exact h.elim

theorem special : Onto n (.path0 c!"Special") specialVal fun _ => True := by
  intro v g
  rcases g.enum mSpecial with ⟨w, rfl, h⟩ | ⟨w, rfl, h⟩ | ⟨w, rfl, h⟩ | ⟨w, rfl, h⟩ | h
  · obtain rfl := kw .getter h
    exact ⟨.getter, rfl, trivial⟩
  · obtain rfl := kw .setter h
    exact ⟨.setter, rfl, trivial⟩
  · obtain rfl := kw .deleter h
    exact ⟨.deleter, rfl, trivial⟩
  · obtain rfl := kw .legacyCaller h
    exact ⟨.legacyCaller, rfl, trivial⟩
  · exact h.elim

theorem stringifierOrInheritOrStatic : Onto n (.path0 c!"StringifierOrInheritOrStatic") stringifierOrInheritOrStaticVal fun _ => True := by
  intro v g
  rcases g.enum mStringifierOrInheritOrStatic with ⟨w, rfl, h⟩ | ⟨w, rfl, h⟩ | ⟨w, rfl, h⟩ | h
  · obtain rfl := kw .stringifier h
    exact ⟨.stringifier, rfl, trivial⟩
  · obtain rfl := kw .inherit h
    exact ⟨.inherit, rfl, trivial⟩
  · obtain rfl := kw .static h
    exact ⟨.static, rfl, trivial⟩
  · exact h.elim

theorem stringifierOrStatic : Onto n (.path0 c!"StringifierOrStatic") stringifierOrStaticVal fun _ => True := by
  intro v g
  rcases g.enum mStringifierOrStatic with ⟨w, rfl, h⟩ | ⟨w, rfl, h⟩ | h
  · obtain rfl := kw .stringifier h
    exact ⟨.stringifier, rfl, trivial⟩
  · obtain rfl := kw .static h
    exact ⟨.static, rfl, trivial⟩
  · exact h.elim

theorem constMember : Onto n (.path0 c!"ConstMember") (constVal c!"ConstMember") WfConst := by
  intro v g
  obtain ⟨_, rfl, ⟨w0, _, rfl, g0, w1, _, rfl, g1, w2, _, rfl, g2, w3, _, rfl, g3, w4, _, rfl, g4, w5, _, rfl, g5, w6, _, rfl, g6, rfl⟩, l⟩ := g.struct mConstMember
  obtain ⟨a0, rfl, x0⟩ := (attrs (block _)).of_succ _ g0
  obtain rfl := kw .const g1
  obtain ⟨a2, rfl, x2⟩ := constType _ g2
  obtain ⟨a3, rfl, x3⟩ := ident _ _ g3
  obtain rfl := punct .assign g4
  obtain ⟨a5, rfl, x5⟩ := constValue _ _ g5
  obtain rfl := punct .semiColon g6
  exact ⟨⟨a0, a2, a3, a5⟩, rfl, ⟨x0, x2, x3, x5⟩⟩

theorem constNamespaceMember : Onto n (.path0 c!"ConstNamespaceMember") (constVal c!"ConstNamespaceMember") WfConst := by
  intro v g
  obtain ⟨_, rfl, ⟨w0, _, rfl, g0, w1, _, rfl, g1, w2, _, rfl, g2, w3, _, rfl, g3, w4, _, rfl, g4, w5, _, rfl, g5, w6, _, rfl, g6, rfl⟩, l⟩ := g.struct mConstNamespaceMember
  obtain ⟨a0, rfl, x0⟩ := (attrs (block _)).of_succ _ g0
  obtain rfl := kw .const g1
  obtain ⟨a2, rfl, x2⟩ := constType _ g2
  obtain ⟨a3, rfl, x3⟩ := ident _ _ g3
  obtain rfl := punct .assign g4
  obtain ⟨a5, rfl, x5⟩ := constValue _ _ g5
  obtain rfl := punct .semiColon g6
  exact ⟨⟨a0, a2, a3, a5⟩, rfl, ⟨x0, x2, x3, x5⟩⟩

theorem attributeInterfaceMember : Onto n (.path0 c!"AttributeInterfaceMember") attributeInterfaceMemberVal fun m => WfAttribute m.attributes m.type_ m.identifier := by
  intro v g
  obtain ⟨_, rfl, ⟨w0, _, rfl, g0, w1, _, rfl, g1, w2, _, rfl, g2, w3, _, rfl, g3, w4, _, rfl, g4, w5, _, rfl, g5, w6, _, rfl, g6, rfl⟩, l⟩ := g.struct mAttributeInterfaceMember
  obtain ⟨a0, rfl, x0⟩ := (attrs (block _)).of_succ _ g0
  obtain ⟨a1, rfl, x1⟩ := opt stringifierOrInheritOrStatic _ g1
  obtain ⟨a2, rfl⟩ := kwFlag .readOnly g2
  obtain rfl := kw .attribute g3
  obtain ⟨a4, rfl, x4⟩ := (attributedType (block _)).of_succ _ g4
  obtain ⟨a5, rfl, x5⟩ := ident _ _ g5
  obtain rfl := punct .semiColon g6
  exact ⟨⟨a0, a1, a2, a4, a5⟩, rfl, ⟨x0, x4, x5⟩⟩

theorem constructorInterfaceMember : Onto n (.path0 c!"ConstructorInterfaceMember") constructorInterfaceMemberVal fun m => WfAttributes m.attributes ∧ WfArguments m.args := by
  intro v g
  obtain ⟨_, rfl, ⟨w0, _, rfl, g0, w1, _, rfl, g1, w2, _, rfl, g2, w3, _, rfl, g3, rfl⟩, l⟩ := g.struct mConstructorInterfaceMember
  obtain ⟨a0, rfl, x0⟩ := (attrs (block _)).of_succ _ g0
  obtain rfl := kw .constructor g1
  obtain ⟨a2, rfl, x2⟩ := (args (block _)).of_succ _ g2
  obtain rfl := punct .semiColon g3
  exact ⟨⟨a0, a2⟩, rfl, ⟨x0, x2⟩⟩

theorem operationInterfaceMember : Onto n (.path0 c!"OperationInterfaceMember") operationInterfaceMemberVal fun m => WfOperation m.attributes m.returnType m.identifier m.args := by
  intro v g
  obtain ⟨_, rfl, ⟨w0, _, rfl, g0, w1, _, rfl, g1, w2, _, rfl, g2, w3, _, rfl, g3, w4, _, rfl, g4, w5, _, rfl, g5, w6, _, rfl, g6, rfl⟩, l⟩ := g.struct mOperationInterfaceMember
  obtain ⟨a0, rfl, x0⟩ := (attrs (block _)).of_succ _ g0
  obtain ⟨a1, rfl, x1⟩ := opt stringifierOrStatic _ g1
  obtain ⟨a2, rfl, x2⟩ := opt special _ g2
  obtain ⟨a3, rfl, x3⟩ := (block _).ret _ g3
  obtain ⟨a4, rfl, x4⟩ := optIdent _ _ g4
  obtain ⟨a5, rfl, x5⟩ := (args (block _)).of_succ _ g5
  obtain rfl := punct .semiColon g6
  exact ⟨⟨a0, a1, a2, a3, a4, a5⟩, rfl, ⟨x0, x3, x4, x5⟩⟩

theorem maplikeInterfaceMember : Onto n (.path0 c!"MaplikeInterfaceMember") maplikeInterfaceMemberVal fun m => WfAttributes m.attributes ∧ WfTypePair m.generics := by
  intro v g
  obtain ⟨_, rfl, ⟨w0, _, rfl, g0, w1, _, rfl, g1, w2, _, rfl, g2, w3, _, rfl, g3, w4, _, rfl, g4, rfl⟩, l⟩ := g.struct mMaplikeInterfaceMember
  obtain ⟨a0, rfl, x0⟩ := (attrs (block _)).of_succ _ g0
  obtain ⟨a1, rfl⟩ := kwFlag .readOnly g1
  obtain rfl := kw .maplike g2
  obtain ⟨a3, rfl, x3⟩ := genericPair _ g3
  obtain rfl := punct .semiColon g4
  exact ⟨⟨a0, a1, a3⟩, rfl, ⟨x0, x3⟩⟩

theorem setlikeInterfaceMember : Onto n (.path0 c!"SetlikeInterfaceMember") setlikeInterfaceMemberVal fun m => WfAttributes m.attributes ∧ WfAttributedType m.generics := by
  intro v g
  obtain ⟨_, rfl, ⟨w0, _, rfl, g0, w1, _, rfl, g1, w2, _, rfl, g2, w3, _, rfl, g3, w4, _, rfl, g4, rfl⟩, l⟩ := g.struct mSetlikeInterfaceMember
  obtain ⟨a0, rfl, x0⟩ := (attrs (block _)).of_succ _ g0
  obtain ⟨a1, rfl⟩ := kwFlag .readOnly g1
  obtain rfl := kw .setlike g2
  obtain ⟨a3, rfl, x3⟩ := genericAttributed _ g3
  obtain rfl := punct .semiColon g4
  exact ⟨⟨a0, a1, a3⟩, rfl, ⟨x0, x3⟩⟩

theorem stringifierMember : Onto n (.path0 c!"StringifierMember") stringifierMemberVal fun m => WfAttributes m.attributes := by
  intro v g
  obtain ⟨_, rfl, ⟨w0, _, rfl, g0, w1, _, rfl, g1, w2, _, rfl, g2, rfl⟩, l⟩ := g.struct mStringifierMember
  obtain ⟨a0, rfl, x0⟩ := (attrs (block _)).of_succ _ g0
  obtain rfl := kw .stringifier g1
  obtain rfl := punct .semiColon g2
  exact ⟨⟨a0⟩, rfl, x0⟩

theorem operationMixinMember : Onto n (.path0 c!"OperationMixinMember") operationMixinMemberVal fun m => WfOperation m.attributes m.returnType m.identifier m.args := by
  intro v g
  obtain ⟨_, rfl, ⟨w0, _, rfl, g0, w1, _, rfl, g1, w2, _, rfl, g2, w3, _, rfl, g3, w4, _, rfl, g4, w5, _, rfl, g5, rfl⟩, l⟩ := g.struct mOperationMixinMember
  obtain ⟨a0, rfl, x0⟩ := (attrs (block _)).of_succ _ g0
  obtain ⟨a1, rfl⟩ := kwFlag .stringifier g1
  obtain ⟨a2, rfl, x2⟩ := (block _).ret _ g2
  obtain ⟨a3, rfl, x3⟩ := optIdent _ _ g3
  obtain ⟨a4, rfl, x4⟩ := (args (block _)).of_succ _ g4
  obtain rfl := punct .semiColon g5
  exact ⟨⟨a0, a1, a2, a3, a4⟩, rfl, ⟨x0, x2, x3, x4⟩⟩

theorem attributeMixinMember : Onto n (.path0 c!"AttributeMixinMember") attributeMixinMemberVal fun m => WfAttribute m.attributes m.type_ m.identifier := by
  intro v g
  obtain ⟨_, rfl, ⟨w0, _, rfl, g0, w1, _, rfl, g1, w2, _, rfl, g2, w3, _, rfl, g3, w4, _, rfl, g4, w5, _, rfl, g5, w6, _, rfl, g6, rfl⟩, l⟩ := g.struct mAttributeMixinMember
  obtain ⟨a0, rfl, x0⟩ := (attrs (block _)).of_succ _ g0
  obtain ⟨a1, rfl⟩ := kwFlag .stringifier g1
  obtain ⟨a2, rfl⟩ := kwFlag .readOnly g2
  obtain rfl := kw .attribute g3
  obtain ⟨a4, rfl, x4⟩ := (attributedType (block _)).of_succ _ g4
  obtain ⟨a5, rfl, x5⟩ := ident _ _ g5
  obtain rfl := punct .semiColon g6
  exact ⟨⟨a0, a1, a2, a4, a5⟩, rfl, ⟨x0, x4, x5⟩⟩

theorem operationNamespaceMember : Onto n (.path0 c!"OperationNamespaceMember") operationNamespaceMemberVal fun m => WfOperation m.attributes m.returnType m.identifier m.args := by
  intro v g
  obtain ⟨_, rfl, ⟨w0, _, rfl, g0, w1, _, rfl, g1, w2, _, rfl, g2, w3, _, rfl, g3, w4, _, rfl, g4, rfl⟩, l⟩ := g.struct mOperationNamespaceMember
  obtain ⟨a0, rfl, x0⟩ := (attrs (block _)).of_succ _ g0
  obtain ⟨a1, rfl, x1⟩ := (block _).ret _ g1
  obtain ⟨a2, rfl, x2⟩ := optIdent _ _ g2
  obtain ⟨a3, rfl, x3⟩ := (args (block _)).of_succ _ g3
  obtain rfl := punct .semiColon g4
  exact ⟨⟨a0, a1, a2, a3⟩, rfl, ⟨x0, x1, x2, x3⟩⟩

theorem attributeNamespaceMember : Onto n (.path0 c!"AttributeNamespaceMember") attributeNamespaceMemberVal fun m => WfAttribute m.attributes m.type_ m.identifier := by
  intro v g
  obtain ⟨_, rfl, ⟨w0, _, rfl, g0, w1, _, rfl, g1, w2, _, rfl, g2, w3, _, rfl, g3, w4, _, rfl, g4, w5, _, rfl, g5, rfl⟩, l⟩ := g.struct mAttributeNamespaceMember
  obtain ⟨a0, rfl, x0⟩ := (attrs (block _)).of_succ _ g0
  obtain rfl := kw .readOnly g1
  obtain rfl := kw .attribute g2
  obtain ⟨a3, rfl, x3⟩ := (attributedType (block _)).of_succ _ g3
  obtain ⟨a4, rfl, x4⟩ := ident _ _ g4
  obtain rfl := punct .semiColon g5
  exact ⟨⟨a0, a3, a4⟩, rfl, ⟨x0, x3, x4⟩⟩

theorem dictionaryMember : Onto n (.path0 c!"DictionaryMember") dictionaryMemberVal WfDictionaryMember := by
  intro v g
  obtain ⟨_, rfl, ⟨w0, _, rfl, g0, w1, _, rfl, g1, w2, _, rfl, g2, w3, _, rfl, g3, w4, _, rfl, g4, w5, _, rfl, g5, rfl⟩, l⟩ := g.struct mDictionaryMember
  obtain ⟨a0, rfl, x0⟩ := (attrs (block _)).of_succ _ g0
  obtain ⟨a1, rfl⟩ := kwFlag .required g1
  obtain ⟨a2, rfl, x2⟩ := (block _).type _ g2
  obtain ⟨a3, rfl, x3⟩ := ident _ _ g3
  obtain ⟨a4, rfl, x4⟩ := optDefault _ _ g4
  obtain rfl := punct .semiColon g5
  exact ⟨⟨a0, a1, a2, a3, a4⟩, rfl, ⟨x0, x2, x3, x4⟩⟩

theorem inheritance : Onto n (.path0 c!"Inheritance") inheritanceVal WfName := by
  intro v g
  obtain ⟨_, rfl, ⟨w0, _, rfl, g0, w1, _, rfl, g1, rfl⟩, l⟩ := g.struct mInheritance
  obtain rfl := punct .colon g0
  obtain ⟨a1, rfl, x1⟩ := ident _ _ g1
  exact ⟨a1, rfl, x1⟩

theorem iterable : Onto n (.path0 c!"IterableInterfaceMember") iterableInterfaceMemberVal fun m => WfInterfaceMember (.iterable m) := by
  intro v g
  rcases g.enum mIterableInterfaceMember with ⟨w, rfl, h⟩ | ⟨w, rfl, h⟩ | h
  · obtain ⟨_, rfl, ⟨w0, _, rfl, g0, w1, _, rfl, g1, w2, _, rfl, g2, w3, _, rfl, g3, rfl⟩, l⟩ := h.struct mSingleTypedIterable
    obtain ⟨a0, rfl, x0⟩ := (attrs (block _)).of_succ _ g0
    obtain rfl := kw .iterable g1
    obtain ⟨a2, rfl, x2⟩ := genericAttributed _ g2
    obtain rfl := punct .semiColon g3
    exact ⟨.single a0 a2, rfl, ⟨x0, x2⟩⟩
  · obtain ⟨_, rfl, ⟨w0, _, rfl, g0, w1, _, rfl, g1, w2, _, rfl, g2, w3, _, rfl, g3, rfl⟩, l⟩ := h.struct mDoubleTypedIterable
    obtain ⟨a0, rfl, x0⟩ := (attrs (block _)).of_succ _ g0
    obtain rfl := kw .iterable g1
    obtain ⟨a2, rfl, x2⟩ := genericPair _ g2
    obtain rfl := punct .semiColon g3
    exact ⟨.double a0 a2, rfl, ⟨x0, x2⟩⟩
  · exact h.elim

theorem async : Onto n (.path0 c!"AsyncIterableInterfaceMember") asyncIterableInterfaceMemberVal fun m => WfInterfaceMember (.asyncIterable m) := by
  intro v g
  rcases g.enum mAsyncIterableInterfaceMember with ⟨w, rfl, h⟩ | ⟨w, rfl, h⟩ | h
  · obtain ⟨_, rfl, ⟨w0, _, rfl, g0, w1, _, rfl, g1, w2, _, rfl, g2, w3, _, rfl, g3, w4, _, rfl, g4, rfl⟩, l⟩ := h.struct mSingleTypedAsyncIterable
    obtain ⟨a0, rfl, x0⟩ := (attrs (block _)).of_succ _ g0
    obtain rfl := asyncIterable g1
    obtain ⟨a2, rfl, x2⟩ := genericAttributed _ g2
    obtain ⟨a3, rfl, x3⟩ := optArgs _ g3
    obtain rfl := punct .semiColon g4
    exact ⟨.single a0 a2 a3, rfl, ⟨x0, x2, x3⟩⟩
  · obtain ⟨_, rfl, ⟨w0, _, rfl, g0, w1, _, rfl, g1, w2, _, rfl, g2, w3, _, rfl, g3, w4, _, rfl, g4, rfl⟩, l⟩ := h.struct mDoubleTypedAsyncIterable
    obtain ⟨a0, rfl, x0⟩ := (attrs (block _)).of_succ _ g0
    obtain rfl := asyncIterable g1
    obtain ⟨a2, rfl, x2⟩ := genericPair _ g2
    obtain ⟨a3, rfl, x3⟩ := optArgs _ g3
    obtain rfl := punct .semiColon g4
    exact ⟨.double a0 a2 a3, rfl, ⟨x0, x2, x3⟩⟩
  · exact h.elim

theorem interfaceMember : Onto n (.path0 c!"InterfaceMember") interfaceMemberVal WfInterfaceMember := by
  intro v g
  rcases g.enum mInterfaceMember with ⟨w, rfl, h⟩ | ⟨w, rfl, h⟩ | ⟨w, rfl, h⟩ | ⟨w, rfl, h⟩ | ⟨w, rfl, h⟩ | ⟨w, rfl, h⟩ | ⟨w, rfl, h⟩ | ⟨w, rfl, h⟩ | ⟨w, rfl, h⟩ | h
  · obtain ⟨a, rfl, y⟩ := constMember _ h
    exact ⟨.const a, rfl, y⟩
  · obtain ⟨a, rfl, y⟩ := attributeInterfaceMember _ h
    exact ⟨.attribute a, rfl, y⟩
  · obtain ⟨a, rfl, y⟩ := constructorInterfaceMember _ h
    exact ⟨.constructor a, rfl, y⟩
  · obtain ⟨a, rfl, y⟩ := operationInterfaceMember _ h
    exact ⟨.operation a, rfl, y⟩
  · obtain ⟨a, rfl, y⟩ := iterable _ h
    exact ⟨.iterable a, rfl, y⟩
  · obtain ⟨a, rfl, y⟩ := async _ h
    exact ⟨.asyncIterable a, rfl, y⟩
  · obtain ⟨a, rfl, y⟩ := maplikeInterfaceMember _ h
    exact ⟨.maplike a, rfl, y⟩
  · obtain ⟨a, rfl, y⟩ := setlikeInterfaceMember _ h
    exact ⟨.setlike a, rfl, y⟩
  · obtain ⟨a, rfl, y⟩ := stringifierMember _ h
    exact ⟨.stringifier a, rfl, y⟩
  · exact h.elim

theorem mixinMember : Onto n (.path0 c!"MixinMember") mixinMemberVal WfMixinMember := by
  intro v g
  rcases g.enum mMixinMember with ⟨w, rfl, h⟩ | ⟨w, rfl, h⟩ | ⟨w, rfl, h⟩ | ⟨w, rfl, h⟩ | h
  · obtain ⟨a, rfl, y⟩ := constMember _ h
    exact ⟨.const a, rfl, y⟩
  · obtain ⟨a, rfl, y⟩ := operationMixinMember _ h
    exact ⟨.operation a, rfl, y⟩
  · obtain ⟨a, rfl, y⟩ := attributeMixinMember _ h
    exact ⟨.attribute a, rfl, y⟩
  · obtain ⟨a, rfl, y⟩ := stringifierMember _ h
    exact ⟨.stringifier a, rfl, y⟩
  · exact h.elim

theorem namespaceMember : Onto n (.path0 c!"NamespaceMember") namespaceMemberVal WfNamespaceMember := by
  intro v g
  rcases g.enum mNamespaceMember with ⟨w, rfl, h⟩ | ⟨w, rfl, h⟩ | ⟨w, rfl, h⟩ | h
  · obtain ⟨a, rfl, y⟩ := constNamespaceMember _ h
    exact ⟨.const a, rfl, y⟩
  · obtain ⟨a, rfl, y⟩ := operationNamespaceMember _ h
    exact ⟨.operation a, rfl, y⟩
  · obtain ⟨a, rfl, y⟩ := attributeNamespaceMember _ h
    exact ⟨.attribute a, rfl, y⟩
  · exact h.elim

theorem body {α : Type} {T : RTy} {f : α → Val} {W : α → Prop} {x : Str} (hm : .alias x (.path1 c!"Vec" T) ∈ crateItems) (h : Onto n T f W) :
    Onto n (.path1 c!"Braced" (.path0 x)) (bodyVal f) fun ms => ∀ m ∈ ms, W m := by
  intro v g
  obtain ⟨w, rfl, ga⟩ := brace_inv (g.le (Nat.le_succ n))
  obtain ⟨as, rfl, w⟩ := vec h _ (ga.alias hm)
  exact ⟨as, rfl, w⟩

theorem values : Onto n (.path1 c!"Braced" (.path0 c!"EnumValueList"))
    (fun vs : List Str => braceVal (punctuatedNonEmptyVal (punctVal .comma) (vs.map stringVal))) fun vs => (∀ v ∈ vs, WfString v) ∧ vs ≠ [] := by
  intro v g
  obtain ⟨w, rfl, ga⟩ := brace_inv (g.le (Nat.le_succ n))
  obtain ⟨vs, rfl, hb, hn⟩ := nonempty_inv (fun _ => punct .comma) (ga.alias mEnumValueList)
  obtain ⟨as, rfl, w⟩ := all (string n) hb
  exact ⟨as, rfl, w, by simpa using hn⟩

theorem optInheritance : Onto n (.path1 c!"Option" (.path0 c!"Inheritance")) (optVal inheritanceVal) WfOptName := by
  intro v g
  obtain ⟨o, rfl, ha⟩ := opt inheritance v g
  refine ⟨o, rfl, ?_⟩
  cases o with
  | none => trivial
  | some d => exact ha d rfl

theorem definition : Onto n (.path0 c!"Definition") definitionVal WfDefinition := by
  intro v g
  rcases g.enum mDefinition with ⟨w, rfl, h⟩ | ⟨w, rfl, h⟩ | ⟨w, rfl, h⟩ | ⟨w, rfl, h⟩ | ⟨w, rfl, h⟩ | ⟨w, rfl, h⟩ | ⟨w, rfl, h⟩ | ⟨w, rfl, h⟩ | ⟨w, rfl, h⟩ | ⟨w, rfl, h⟩ | ⟨w, rfl, h⟩ | ⟨w, rfl, h⟩ | ⟨w, rfl, h⟩ | ⟨w, rfl, h⟩ | h
  · obtain ⟨_, rfl, ⟨w0, _, rfl, g0, w1, _, rfl, g1, w2, _, rfl, g2, w3, _, rfl, g3, w4, _, rfl, g4, w5, _, rfl, g5, w6, _, rfl, g6, rfl⟩, l⟩ := h.struct mCallbackDefinition
    obtain ⟨a0, rfl, x0⟩ := (attrs (block _)).of_succ _ g0
    obtain rfl := kw .callback g1
    obtain ⟨a2, rfl, x2⟩ := ident _ _ g2
    obtain rfl := punct .assign g3
    obtain ⟨a4, rfl, x4⟩ := (block _).ret _ g4
    obtain ⟨a5, rfl, x5⟩ := (args (block _)).of_succ _ g5
    obtain rfl := punct .semiColon g6
    exact ⟨.callback a0 a2 a4 a5, rfl, ⟨x0, x2, x4, x5⟩⟩
  · obtain ⟨_, rfl, ⟨w0, _, rfl, g0, w1, _, rfl, g1, w2, _, rfl, g2, w3, _, rfl, g3, w4, _, rfl, g4, w5, _, rfl, g5, w6, _, rfl, g6, rfl⟩, l⟩ := h.struct mCallbackInterfaceDefinition
    obtain ⟨a0, rfl, x0⟩ := (attrs (block _)).of_succ _ g0
    obtain rfl := kw .callback g1
    obtain rfl := kw .interface g2
    obtain ⟨a3, rfl, x3⟩ := ident _ _ g3
    obtain ⟨a4, rfl, x4⟩ := optInheritance _ g4
    obtain ⟨a5, rfl, x5⟩ := body mInterfaceMembers interfaceMember _ g5
    obtain rfl := punct .semiColon g6
    exact ⟨.callbackInterface a0 a3 a4 a5, rfl, ⟨x0, x3, x5⟩, x4⟩
  · obtain ⟨_, rfl, ⟨w0, _, rfl, g0, w1, _, rfl, g1, w2, _, rfl, g2, w3, _, rfl, g3, w4, _, rfl, g4, w5, _, rfl, g5, rfl⟩, l⟩ := h.struct mInterfaceDefinition
    obtain ⟨a0, rfl, x0⟩ := (attrs (block _)).of_succ _ g0
    obtain rfl := kw .interface g1
    obtain ⟨a2, rfl, x2⟩ := ident _ _ g2
    obtain ⟨a3, rfl, x3⟩ := optInheritance _ g3
    obtain ⟨a4, rfl, x4⟩ := body mInterfaceMembers interfaceMember _ g4
    obtain rfl := punct .semiColon g5
    exact ⟨.interface a0 a2 a3 a4, rfl, ⟨x0, x2, x4⟩, x3⟩
  · obtain ⟨_, rfl, ⟨w0, _, rfl, g0, w1, _, rfl, g1, w2, _, rfl, g2, w3, _, rfl, g3, w4, _, rfl, g4, w5, _, rfl, g5, rfl⟩, l⟩ := h.struct mInterfaceMixinDefinition
    obtain ⟨a0, rfl, x0⟩ := (attrs (block _)).of_succ _ g0
    obtain rfl := kw .interface g1
    obtain rfl := kw .mixin g2
    obtain ⟨a3, rfl, x3⟩ := ident _ _ g3
    obtain ⟨a4, rfl, x4⟩ := body mMixinMembers mixinMember _ g4
    obtain rfl := punct .semiColon g5
    exact ⟨.interfaceMixin a0 a3 a4, rfl, ⟨x0, x3, x4⟩⟩
  · obtain ⟨_, rfl, ⟨w0, _, rfl, g0, w1, _, rfl, g1, w2, _, rfl, g2, w3, _, rfl, g3, w4, _, rfl, g4, rfl⟩, l⟩ := h.struct mNamespaceDefinition
    obtain ⟨a0, rfl, x0⟩ := (attrs (block _)).of_succ _ g0
    obtain rfl := kw .namespace g1
    obtain ⟨a2, rfl, x2⟩ := ident _ _ g2
    obtain ⟨a3, rfl, x3⟩ := body mNamespaceMembers namespaceMember _ g3
    obtain rfl := punct .semiColon g4
    exact ⟨.namespace a0 a2 a3, rfl, ⟨x0, x2, x3⟩⟩
  · obtain ⟨_, rfl, ⟨w0, _, rfl, g0, w1, _, rfl, g1, w2, _, rfl, g2, w3, _, rfl, g3, w4, _, rfl, g4, w5, _, rfl, g5, rfl⟩, l⟩ := h.struct mDictionaryDefinition
    obtain ⟨a0, rfl, x0⟩ := (attrs (block _)).of_succ _ g0
    obtain rfl := kw .dictionary g1
    obtain ⟨a2, rfl, x2⟩ := ident _ _ g2
    obtain ⟨a3, rfl, x3⟩ := optInheritance _ g3
    obtain ⟨a4, rfl, x4⟩ := body mDictionaryMembers dictionaryMember _ g4
    obtain rfl := punct .semiColon g5
    exact ⟨.dictionary a0 a2 a3 a4, rfl, ⟨x0, x2, x4⟩, x3⟩
  · obtain ⟨_, rfl, ⟨w0, _, rfl, g0, w1, _, rfl, g1, w2, _, rfl, g2, w3, _, rfl, g3, w4, _, rfl, g4, w5, _, rfl, g5, rfl⟩, l⟩ := h.struct mPartialInterfaceDefinition
    obtain ⟨a0, rfl, x0⟩ := (attrs (block _)).of_succ _ g0
    obtain rfl := kw .partial g1
    obtain rfl := kw .interface g2
    obtain ⟨a3, rfl, x3⟩ := ident _ _ g3
    obtain ⟨a4, rfl, x4⟩ := body mInterfaceMembers interfaceMember _ g4
    obtain rfl := punct .semiColon g5
    exact ⟨.partialInterface a0 a3 a4, rfl, ⟨x0, x3, x4⟩⟩
  · obtain ⟨_, rfl, ⟨w0, _, rfl, g0, w1, _, rfl, g1, w2, _, rfl, g2, w3, _, rfl, g3, w4, _, rfl, g4, w5, _, rfl, g5, w6, _, rfl, g6, rfl⟩, l⟩ := h.struct mPartialInterfaceMixinDefinition
    obtain ⟨a0, rfl, x0⟩ := (attrs (block _)).of_succ _ g0
    obtain rfl := kw .partial g1
    obtain rfl := kw .interface g2
    obtain rfl := kw .mixin g3
    obtain ⟨a4, rfl, x4⟩ := ident _ _ g4
    obtain ⟨a5, rfl, x5⟩ := body mMixinMembers mixinMember _ g5
    obtain rfl := punct .semiColon g6
    exact ⟨.partialInterfaceMixin a0 a4 a5, rfl, ⟨x0, x4, x5⟩⟩
  · obtain ⟨_, rfl, ⟨w0, _, rfl, g0, w1, _, rfl, g1, w2, _, rfl, g2, w3, _, rfl, g3, w4, _, rfl, g4, w5, _, rfl, g5, rfl⟩, l⟩ := h.struct mPartialDictionaryDefinition
    obtain ⟨a0, rfl, x0⟩ := (attrs (block _)).of_succ _ g0
    obtain rfl := kw .partial g1
    obtain rfl := kw .dictionary g2
    obtain ⟨a3, rfl, x3⟩ := ident _ _ g3
    obtain ⟨a4, rfl, x4⟩ := body mDictionaryMembers dictionaryMember _ g4
    obtain rfl := punct .semiColon g5
    exact ⟨.partialDictionary a0 a3 a4, rfl, ⟨x0, x3, x4⟩⟩
  · obtain ⟨_, rfl, ⟨w0, _, rfl, g0, w1, _, rfl, g1, w2, _, rfl, g2, w3, _, rfl, g3, w4, _, rfl, g4, w5, _, rfl, g5, rfl⟩, l⟩ := h.struct mPartialNamespaceDefinition
    obtain ⟨a0, rfl, x0⟩ := (attrs (block _)).of_succ _ g0
    obtain rfl := kw .partial g1
    obtain rfl := kw .namespace g2
    obtain ⟨a3, rfl, x3⟩ := ident _ _ g3
    obtain ⟨a4, rfl, x4⟩ := body mNamespaceMembers namespaceMember _ g4
    obtain rfl := punct .semiColon g5
    exact ⟨.partialNamespace a0 a3 a4, rfl, ⟨x0, x3, x4⟩⟩
  · obtain ⟨_, rfl, ⟨w0, _, rfl, g0, w1, _, rfl, g1, w2, _, rfl, g2, w3, _, rfl, g3, w4, _, rfl, g4, rfl⟩, l⟩ := h.struct mEnumDefinition
    obtain ⟨a0, rfl, x0⟩ := (attrs (block _)).of_succ _ g0
    obtain rfl := kw .enum g1
    obtain ⟨a2, rfl, x2⟩ := ident _ _ g2
    obtain ⟨a3, rfl, x3⟩ := values _ g3
    obtain rfl := punct .semiColon g4
    exact ⟨.enum a0 a2 a3, rfl, ⟨x0, x2, x3.1⟩, x3.2⟩
  · obtain ⟨_, rfl, ⟨w0, _, rfl, g0, w1, _, rfl, g1, w2, _, rfl, g2, w3, _, rfl, g3, w4, _, rfl, g4, rfl⟩, l⟩ := h.struct mTypedefDefinition
    obtain ⟨a0, rfl, x0⟩ := (attrs (block _)).of_succ _ g0
    obtain rfl := kw .typedef g1
    obtain ⟨a2, rfl, x2⟩ := (attributedType (block _)).of_succ _ g2
    obtain ⟨a3, rfl, x3⟩ := ident _ _ g3
    obtain rfl := punct .semiColon g4
    exact ⟨.typedef a0 a2 a3, rfl, ⟨x0, x2, x3⟩⟩
  · obtain ⟨_, rfl, ⟨w0, _, rfl, g0, w1, _, rfl, g1, w2, _, rfl, g2, w3, _, rfl, g3, w4, _, rfl, g4, rfl⟩, l⟩ := h.struct mIncludesStatementDefinition
    obtain ⟨a0, rfl, x0⟩ := (attrs (block _)).of_succ _ g0
    obtain ⟨a1, rfl, x1⟩ := ident _ _ g1
    obtain rfl := kw .includes g2
    obtain ⟨a3, rfl, x3⟩ := ident _ _ g3
    obtain rfl := punct .semiColon g4
    exact ⟨.includesStatement a0 a1 a3, rfl, ⟨x0, x1, x3⟩⟩
  · obtain ⟨_, rfl, ⟨w0, _, rfl, g0, w1, _, rfl, g1, w2, _, rfl, g2, w3, _, rfl, g3, w4, _, rfl, g4, rfl⟩, l⟩ := h.struct mImplementsDefinition
    obtain ⟨a0, rfl, x0⟩ := (attrs (block _)).of_succ _ g0
    obtain ⟨a1, rfl, x1⟩ := ident _ _ g1
    obtain rfl := kw .implements g2
    obtain ⟨a3, rfl, x3⟩ := ident _ _ g3
    obtain rfl := punct .semiColon g4
    exact ⟨.implements a0 a1 a3, rfl, ⟨x0, x1, x3⟩⟩
  · exact h.elim

theorem definitions {v : Val} (h : HasType crateItems (.path0 c!"Definitions") v) (hl : ∀ u, Part u v → Legal u) :
    ∃ ds, v = .list (ds.map definitionVal) ∧ Wf ds :=
  vec definition v (Good.alias mDefinitions ⟨h, hl, Nat.le_refl _⟩)

end Verif.Source.Exact
