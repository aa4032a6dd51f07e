import Verif.Spec.Rename
import Verif.Proof.Map
import Verif.Proof.Lexer

/-! # Renaming identifiers in spellings -/

namespace Verif
open Spec

/-- `w` is not a free word. -/
def isFixed (w : Str) : Bool :=
  keywords.contains w || (match w.head? with | some c => !(c.isAlpha || c == '_') | none => true)

theorem free_head {i : Str} (h : Free i) : ∃ c v, i = c :: v ∧ c.isAlpha = true := by
  obtain ⟨c, v, h1, h2, -⟩ := word_iff.1 h.1
  exact ⟨c, v, h1, h2⟩

theorem keyword_head : ∀ w ∈ keywords, w.head? ≠ some '_' := by decide +kernel

theorem isFixed_sound {w : Str} (h : isFixed w = true) {i : Str} (hi : Free i) : w ∉ [i, '_' :: i] := by
  obtain ⟨c, v, rfl, hc⟩ := free_head hi
  simp only [isFixed, Bool.or_eq_true, List.contains_iff_mem] at h
  intro hw
  simp at hw
  rcases h with h | h
  · rcases hw with rfl | rfl
    · exact hi.2 h
    · exact keyword_head _ h rfl
  · rcases hw with rfl | rfl
    · simp [hc] at h
    · simp at h

variable {g : Str → Str} (hg : Renaming g)

theorem renamed_fixed {w w' : Str} (h : Renamed g w w') (hw : isFixed w = true) : w' = w := by
  cases h with
  | name hi h _ => exact absurd h (isFixed_sound hw hi)
  | same => rfl

include hg in
theorem renamed_to_fixed {w w' : Str} (h : Renamed g w w') (hw : isFixed w' = true) : w' = w := by
  cases h with
  | name hi _ h => exact absurd h (isFixed_sound hw (hg.1 _ hi))
  | same => rfl

/-- The renamed spellings of `A` are in `B`. -/
def Moves (g : Str → Str) (A B : Lang) : Prop := ∀ ls ls', Pointwise (Renamed g) ls ls' → A ls → B ls'

theorem pointwise_append {R : Str → Str → Prop} {a b ls' : List Str} (h : Pointwise R (a ++ b) ls') :
    ∃ a' b', ls' = a' ++ b' ∧ Pointwise R a a' ∧ Pointwise R b b' := by
  induction a generalizing ls' with
  | nil => exact ⟨[], ls', rfl, .nil, h⟩
  | cons w a ih =>
    cases h with
    | cons h hs =>
      obtain ⟨a', b', rfl, h1, h2⟩ := ih hs
      exact ⟨_ :: a', b', rfl, .cons h h1, h2⟩

theorem pointwise_one {R : Str → Str → Prop} {w : Str} {ls' : List Str} (h : Pointwise R [w] ls') :
    ∃ w', ls' = [w'] ∧ R w w' := by
  cases h with
  | cons h hs => cases hs; exact ⟨_, rfl, h⟩

include hg in
theorem pointwise_prefix {p ls ls' : List Str} (h : Pointwise (Renamed g) ls ls') (hp : p.all isFixed = true)
    (hl : p <+: ls') : p <+: ls := by
  induction p generalizing ls ls' with
  | nil => exact ⟨ls, rfl⟩
  | cons w p ih =>
    obtain ⟨x, rfl⟩ := hl
    simp at hp
    cases h with
    | cons h hs =>
      obtain rfl := renamed_to_fixed hg h hp.1
      obtain ⟨y, rfl⟩ := ih hs (by simpa using hp.2) ⟨x, rfl⟩
      exact ⟨y, rfl⟩

theorem pointwise_length {R : Str → Str → Prop} {ls ls' : List Str} (h : Pointwise R ls ls') :
    ls.length = ls'.length := by
  induction h <;> simp_all

namespace Moves

variable {A A' B B' : Lang} {i : Str}

theorem tok {w : Str} (h : isFixed w = true) : Moves g (tok w) (tok w) := by
  rintro ls ls' hp rfl
  obtain ⟨w', rfl, h1⟩ := pointwise_one hp
  rw [renamed_fixed h1 h]
  rfl

theorem eps : Moves g eps eps := by
  rintro ls ls' hp rfl
  cases hp
  rfl

theorem seq (ha : Moves g A A') (hb : Moves g B B') : Moves g (A ⨾ B) (A' ⨾ B') := by
  rintro _ ls' hp ⟨a, b, rfl, h1, h2⟩
  obtain ⟨a', b', rfl, h3, h4⟩ := pointwise_append hp
  exact ⟨a', b', rfl, ha _ _ h3 h1, hb _ _ h4 h2⟩

theorem cons {w : Str} (h : isFixed w = true) (hb : Moves g B B') : Moves g (Spec.tok w ⨾ B) (Spec.tok w ⨾ B') :=
  seq (tok h) hb

theorem semi {w : Str} (ha : Moves g A A') (h : isFixed w = true) : Moves g (A ⨾ Spec.tok w) (A' ⨾ Spec.tok w) :=
  seq ha (tok h)

theorem mid {w w' : Str} (h : (isFixed w && isFixed w') = true) (ha : Moves g A A') :
    Moves g (Spec.tok w ⨾ A ⨾ Spec.tok w') (Spec.tok w ⨾ A' ⨾ Spec.tok w') := by
  simp at h
  exact cons h.1 (semi ha h.2)

theorem opt (q : Bool) {w : Str} (h : isFixed w = true) : Moves g (optTok q w) (optTok q w) := by
  cases q
  · exact eps
  · exact tok h

include hg

theorem avoiding {ps : List (List Str)} (h : ps.all (·.all isFixed) = true) (ha : Moves g A A') :
    Moves g (avoiding ps A) (avoiding ps A') := by
  rintro ls ls' hp ⟨h1, h2⟩
  refine ⟨ha _ _ hp h1, fun p hm hl => h2 p hm (pointwise_prefix hg hp ?_ hl)⟩
  rw [List.all_eq_true] at h
  exact h p hm

/-- The new name. -/
theorem word {w w' : Str} (h : Renamed g w w') (hi : Regex.word.Matches i) (hw : w ∈ [i, '_' :: i]) :
    Free i ∧ w' ∈ [g i, '_' :: g i] ∨ i ∈ keywords ∧ g i = i ∧ w' = w := by
  cases h with
  | name hj h1 h2 =>
    rename_i j
    have : i = j := by
      obtain ⟨c, v, rfl, hc, -⟩ := word_iff.1 hi
      obtain ⟨d, u, rfl, hd⟩ := free_head hj
      simp at hw h1
      have n1 : c ≠ '_' := by rintro rfl; simp [Char.isAlpha, Char.isUpper, Char.isLower] at hc
      have n2 : d ≠ '_' := by rintro rfl; simp [Char.isAlpha, Char.isUpper, Char.isLower] at hd
      grind
    subst this
    exact .inl ⟨hj, h2⟩
  | same h =>
    by_cases hk : i ∈ keywords
    · exact .inr ⟨hk, hg.2 i hk, rfl⟩
    · exact absurd hw (h i ⟨hi, hk⟩)

theorem wf (hi : Regex.word.Matches i) : Regex.word.Matches (g i) := by
  by_cases hk : i ∈ keywords
  · rw [hg.2 i hk]; exact hi
  · exact (hg.1 i ⟨hi, hk⟩).1

theorem name (i : Str) : Moves g (name i) (name (g i)) := by
  rintro ls ls' hp ⟨h1, h2⟩
  refine ⟨wf hg h1, ?_⟩
  obtain ⟨w, rfl, hw⟩ : ∃ w, ls = [w] ∧ w ∈ [i, '_' :: i] := by
    rcases h2 with rfl | rfl <;> exact ⟨_, rfl, by simp⟩
  obtain ⟨w', rfl, h3⟩ := pointwise_one hp
  rcases word hg h3 h1 hw with ⟨-, h4⟩ | ⟨-, h4, rfl⟩
  · simpa using h4
  · rw [h4]; simpa using hw

theorem typeName {l : List Str} (hl : l.all keywords.contains = true) (i : Str) :
    Moves g (typeName l i) (typeName l (g i)) := by
  rintro ls ls' hp ⟨h1, h2⟩
  refine ⟨wf hg h1, ?_⟩
  obtain ⟨w, rfl, hw⟩ : ∃ w, ls = [w] ∧ w ∈ [i, '_' :: i] := by
    rcases h2 with ⟨rfl, -⟩ | rfl <;> exact ⟨_, rfl, by simp⟩
  obtain ⟨w', rfl, h3⟩ := pointwise_one hp
  rcases word hg h3 h1 hw with ⟨h5, h4⟩ | ⟨-, h4, rfl⟩
  · have : g i ∉ l := fun h => (hg.1 i h5).2 (by
      rw [List.all_eq_true] at hl
      simpa using hl _ h)
    simp at h4
    rcases h4 with rfl | rfl <;> simp [this]
  · rw [h4]; exact h2

theorem named (ha : Moves g A A') : Moves g (named A i) (named A' (g i)) := by
  rintro _ ls' hp ⟨a, b, rfl, h1, h2, h3⟩
  obtain ⟨a', b', rfl, h4, h5⟩ := pointwise_append hp
  refine ⟨a', b', rfl, ha _ _ h4 h1, name hg i _ _ h5 h2, fun h => h3 ?_⟩
  have h6 : (a' ++ b').all isFixed = true := by
    have : ∀ l ∈ twoWordTypes, l.all isFixed = true := by decide +kernel
    exact this _ h
  obtain ⟨x, hx⟩ := pointwise_prefix hg hp h6 ⟨[], by simp⟩
  have h7 := pointwise_length hp
  rw [← hx] at h7 ⊢
  simp at h7
  subst h7
  simpa using h

omit hg

theorem string (v : Str) : Moves g (string v) (string v) := by
  rintro ls ls' hp ⟨h1, rfl⟩
  obtain ⟨w', rfl, h3⟩ := pointwise_one hp
  rw [renamed_fixed h3 (by simp [isFixed])]
  exact ⟨h1, rfl⟩

theorem number {re : Regex} (hre : ∀ v, re.Matches v → Numeral v) (v : Str) : Moves g (literal re v) (literal re v) := by
  rintro ls ls' hp ⟨h1, rfl⟩
  obtain ⟨w', rfl, h3⟩ := pointwise_one hp
  rw [renamed_fixed h3 ?_]
  · exact ⟨h1, rfl⟩
  · obtain ⟨c, v, rfl, hc⟩ := Number.first (hre v h1)
    simp only [isFixed, Bool.or_eq_true]
    right
    rcases hc with hc | rfl | rfl
    · unfold IsDig at hc
      have h1 : c.isAlpha = false := by
        simp only [Char.isAlpha, Char.isUpper, Char.isLower]
        have h2 := hc.2
        simp only [Char.le_def, UInt32.le_iff_toNat_le] at hc ⊢
        simp at hc ⊢
        omega
      have h2 : c ≠ '_' := by rintro rfl; revert hc; decide
      simp [h1, h2]
    · rfl
    · rfl

theorem sepBy {sep : Lang} (hs : Moves g sep sep) {α β : Type} {L : α → Lang} {L' : β → Lang} {k : α → β} : ∀ {l : List α},
    (∀ a ∈ l, Moves g (L a) (L' (k a))) → Moves g (sepBy sep (l.map L)) (Spec.sepBy sep ((l.map k).map L'))
  | [], _ => eps
  | [a], h => h a (by simp)
  | a :: b :: l, h => seq (h a (by simp)) (seq hs (Moves.sepBy hs (l := b :: l) fun c hc => h c (List.mem_cons_of_mem _ hc)))

theorem concat {α β : Type} {L : α → Lang} {L' : β → Lang} {k : α → β} : ∀ {l : List α},
    (∀ a ∈ l, Moves g (L a) (L' (k a))) → Moves g (concat (l.map L)) (Spec.concat ((l.map k).map L'))
  | [], _ => eps
  | a :: l, h => seq (h a (by simp)) (Moves.concat (l := l) fun c hc => h c (List.mem_cons_of_mem _ hc))

end Moves

/-! ## Literals -/

theorem mv_integer (i : IntegerLit) : Moves g (integerLit i) (integerLit i) := by
  cases i
  · exact .number (fun _ h => .inl h) _
  · exact .number (fun _ h => .inr (.inl h)) _
  · exact .number (fun _ h => .inr (.inr (.inl h))) _

theorem mv_float (f : FloatLit) : Moves g (floatLit f) (floatLit f) := by
  cases f
  · exact .number (fun _ h => .inr (.inr (.inr h))) _
  all_goals exact .tok (by decide +kernel)

theorem mv_boolean (b : Bool) : Moves g (booleanLit b) (booleanLit b) := by
  cases b <;> exact .tok (by decide +kernel)

theorem mv_defaultValue (d : DefaultValue) : Moves g (defaultValue d) (defaultValue d) := by
  cases d with
  | float f => exact mv_float f
  | integer i => exact mv_integer i
  | string v => exact .string v
  | boolean b => exact mv_boolean b
  | emptyArray => exact .cons (by decide +kernel) (.tok (by decide +kernel))
  | emptyDictionary => exact .cons (by decide +kernel) (.tok (by decide +kernel))
  | null => exact .tok (by decide +kernel)

theorem mv_constValue (d : ConstValue) : Moves g (constValue d) (constValue d) := by
  cases d with
  | float f => exact mv_float f
  | integer i => exact mv_integer i
  | boolean b => exact mv_boolean b
  | null => exact .tok (by decide +kernel)

theorem mv_default (d : Option DefaultValue) : Moves g (Spec.default d) (Spec.default d) := by
  cases d with
  | none => exact .eps
  | some d => exact .cons (by decide +kernel) (mv_defaultValue d)

theorem mv_integerType (t : IntegerType) : Moves g (integerType t) (integerType t) := by
  cases t with
  | longLong u => exact .seq (.opt u (by decide +kernel)) (.cons (by decide +kernel) (.tok (by decide +kernel)))
  | long u => exact .seq (.opt u (by decide +kernel)) (.tok (by decide +kernel))
  | short u => exact .seq (.opt u (by decide +kernel)) (.tok (by decide +kernel))

theorem mv_floatingPointType (t : FloatingPointType) : Moves g (floatingPointType t) (floatingPointType t) := by
  cases t <;> exact .seq (.opt _ (by decide +kernel)) (.tok (by decide +kernel))

theorem fixed_builtin (b : Builtin) : isFixed (builtinWord b) = true := by
  cases b <;> decide +kernel

theorem fixed_query : isFixed c!"?" = true := by decide
theorem fixed_comma : isFixed c!"," = true := by decide
theorem fixed_semi : isFixed c!";" = true := by decide

/-- `T?` -/
theorem mv_null {A A' : Lang} (h : Moves g A A') (q : Bool) : Moves g (A ⨾ optTok q c!"?") (A' ⨾ optTok q c!"?") :=
  .seq h (.opt q fixed_query)

theorem mv_angles {A A' : Lang} (h : Moves g A A') : Moves g (angles A) (angles A') := .mid (by decide) h
theorem mv_parens {A A' : Lang} (h : Moves g A A') : Moves g (parens A) (parens A') := .mid (by decide) h
theorem mv_brackets {A A' : Lang} (h : Moves g A A') : Moves g (brackets A) (brackets A') := .mid (by decide) h
theorem mv_braces {A A' : Lang} (h : Moves g A A') : Moves g (braces A) (braces A') := .mid (by decide) h
theorem mv_comma : Moves g comma comma := .tok fixed_comma
theorem mv_semi : Moves g (tok c!";") (tok c!";") := .tok fixed_semi

include hg

theorem mv_idOrString (x : IdentifierOrString) :
    Moves g (identifierOrString x) (identifierOrString (mapIdentifierOrString g x)) := by
  cases x with
  | identifier i => exact .name hg i
  | string v => exact .string v

/-! ## Types -/

mutual

theorem mv_type : ∀ t, Moves g (type t) (type (mapType id g t))
  | .single t => by simp only [type, mapType, id]; exact mv_singleType t
  | .union ms q => by
    simp only [type, mapType, id]
    exact mv_null (mv_parens (mv_unionMembers ms)) q

theorem mv_singleType : ∀ t, Moves g (singleType t) (singleType (mapSingleType id g t))
  | .any => by simp only [singleType, mapSingleType]; exact .tok (by decide +kernel)
  | .nonAny t => by simp only [singleType, mapSingleType]; exact .avoiding hg (by decide +kernel) (mv_nonAnyType t)

theorem mv_nonAnyType : ∀ t, Moves g (nonAnyType t) (nonAnyType (mapNonAnyType id g t))
  | .promise r => by
    simp only [nonAnyType, mapNonAnyType]; exact .cons (by decide +kernel) (mv_angles (mv_returnType r))
  | .integer t q => by simp only [nonAnyType, mapNonAnyType]; exact mv_null (mv_integerType t) q
  | .floatingPoint t q => by simp only [nonAnyType, mapNonAnyType]; exact mv_null (mv_floatingPointType t) q
  | .builtin t q => by simp only [nonAnyType, mapNonAnyType]; exact mv_null (.tok (fixed_builtin t)) q
  | .sequence t q => by
    simp only [nonAnyType, mapNonAnyType]; exact mv_null (.cons (by decide +kernel) (mv_angles (mv_type t))) q
  | .frozenArray t q => by
    simp only [nonAnyType, mapNonAnyType]; exact mv_null (.cons (by decide +kernel) (mv_angles (mv_type t))) q
  | .record k v q => by
    simp only [nonAnyType, mapNonAnyType]
    exact mv_null (.cons (by decide +kernel) (mv_angles (.seq (mv_recordKeyType k) (.seq mv_comma (mv_type v))))) q
  | .identifier i q => by
    simp only [nonAnyType, mapNonAnyType]; exact mv_null (.typeName hg (by decide +kernel) i) q

theorem mv_recordKeyType : ∀ t, Moves g (recordKeyType t) (recordKeyType (mapRecordKeyType id g t))
  | .byte => by simp only [recordKeyType, mapRecordKeyType]; exact .tok (by decide +kernel)
  | .dom => by simp only [recordKeyType, mapRecordKeyType]; exact .tok (by decide +kernel)
  | .usv => by simp only [recordKeyType, mapRecordKeyType]; exact .tok (by decide +kernel)
  | .nonAny t => by
    simp only [recordKeyType, mapRecordKeyType]; exact .avoiding hg (by decide +kernel) (mv_nonAnyType t)

theorem mv_unionMember : ∀ t, Moves g (unionMember t) (unionMember (mapUnionMember id g t))
  | .single as t => by
    simp only [unionMember, mapUnionMember]
    exact .seq (mv_attributes as) (mv_nonAnyType t)
  | .union ms q => by
    simp only [unionMember, mapUnionMember]
    exact mv_null (mv_parens (mv_unionMembers ms)) q

theorem mv_unionMembers : ∀ ms, Moves g (sepBy (tok c!"or") (unionMembers ms))
    (sepBy (tok c!"or") (unionMembers (mapUnionMembers id g ms)))
  | [] => by simp only [unionMembers, mapUnionMembers]; exact .eps
  | [m] => by
    simp only [unionMembers, mapUnionMembers, sepBy]
    exact mv_unionMember m
  | m :: m' :: ms => by
    have := mv_unionMembers (m' :: ms)
    simp only [unionMembers, mapUnionMembers, sepBy] at this ⊢
    exact .seq (mv_unionMember m) (.cons (by decide +kernel) this)

theorem mv_returnType : ∀ t, Moves g (returnType t) (returnType (mapReturnType id g t))
  | .undefined => by simp only [returnType, mapReturnType]; exact .tok (by decide +kernel)
  | .type t => by simp only [returnType, mapReturnType]; exact .avoiding hg (by decide +kernel) (mv_type t)

theorem mv_extAttr : ∀ t, Moves g (extAttr t) (extAttr (mapExtAttr id g t))
  | .argList i args => by
    simp only [extAttr, mapExtAttr]
    exact .seq (.name hg i) (mv_parens (mv_arguments args))
  | .namedArgList l r args => by
    simp only [extAttr, mapExtAttr]
    exact .seq (.name hg l) (.cons (by decide) (.seq (.name hg r) (mv_parens (mv_arguments args))))
  | .identList i is => by
    simp only [extAttr, mapExtAttr]
    exact .seq (.name hg i) (.cons (by decide) (mv_parens (.sepBy mv_comma fun j _ => .name hg j)))
  | .ident l r => by
    simp only [extAttr, mapExtAttr]
    exact .seq (.name hg l) (.cons (by decide) (mv_idOrString hg r))
  | .wildcard l => by
    simp only [extAttr, mapExtAttr]
    exact .seq (.name hg l) (.cons (by decide) (.tok (by decide)))
  | .noArgs i => by
    simp only [extAttr, mapExtAttr]
    exact .name hg i

theorem mv_extAttrs : ∀ as, Moves g (sepBy comma (extAttrs as)) (sepBy comma (extAttrs (mapExtAttrs id g as)))
  | [] => by simp only [extAttrs, mapExtAttrs]; exact .eps
  | [m] => by
    simp only [extAttrs, mapExtAttrs, sepBy]
    exact mv_extAttr m
  | m :: m' :: ms => by
    have := mv_extAttrs (m' :: ms)
    simp only [extAttrs, mapExtAttrs, sepBy] at this ⊢
    exact .seq (mv_extAttr m) (.seq mv_comma this)

theorem mv_attributes : ∀ as, Moves g (attributes as) (attributes (mapAttributes id g as))
  | none => by simp only [attributes, mapAttributes]; exact .eps
  | some as => by simp only [attributes, mapAttributes]; exact mv_brackets (mv_extAttrs as)

theorem mv_namedAttributed : ∀ t i, Moves g (namedAttributed t i) (namedAttributed (mapAttributedType id g t) (g i))
  | .mk as t, i => by
    simp only [namedAttributed, mapAttributedType]
    exact .seq (mv_attributes as) (.named hg (mv_type t))

theorem mv_argument : ∀ a, Moves g (argument a) (argument (mapArgument id g a))
  | .single as true t i d => by
    simp only [argument, mapArgument, if_true]
    exact .seq (mv_attributes as) (.cons (by decide +kernel) (.seq (mv_namedAttributed t i) (mv_default d)))
  | .single as false t i d => by
    simp only [argument, mapArgument, Bool.false_eq_true, if_false]
    refine .seq (mv_attributes as) ?_
    rintro ls ls' hp ⟨hd, h⟩
    refine ⟨hd, ?_⟩
    cases as with
    | none =>
      simp only [mapAttributes, Option.isSome_none, Bool.false_eq_true, if_false] at h ⊢
      exact Moves.avoiding hg (by decide +kernel) (mv_namedAttributed t i) ls ls' hp h
    | some as =>
      simp only [mapAttributes, Option.isSome_some, if_true] at h ⊢
      exact Moves.avoiding hg (by decide +kernel) (mv_namedAttributed t i) ls ls' hp h
  | .variadic as t i => by
    simp only [argument, mapArgument]
    exact .seq (mv_attributes as) (.seq (mv_type t) (.cons (by decide) (.name hg i)))

theorem mv_arguments : ∀ as, Moves g (sepBy comma (arguments as)) (sepBy comma (arguments (mapArguments id g as)))
  | [] => by simp only [arguments, mapArguments]; exact .eps
  | [m] => by
    simp only [arguments, mapArguments, sepBy]
    exact mv_argument m
  | m :: m' :: ms => by
    have := mv_arguments (m' :: ms)
    simp only [arguments, mapArguments, sepBy] at this ⊢
    exact .seq (mv_argument m) (.seq mv_comma this)

end

/-! ## Members -/

theorem mv_attributedType (t : AttributedType) : Moves g (attributedType t) (attributedType (mapAttributedType id g t)) := by
  cases t with
  | mk as t =>
    simp only [attributedType, mapAttributedType]
    exact .seq (mv_attributes hg as) (mv_type hg t)

theorem mv_argumentList (as : List Argument) : Moves g (argumentList as) (argumentList (mapArguments id g as)) :=
  mv_parens (mv_arguments hg as)

theorem mv_optArgumentList (as : Option (List Argument)) :
    Moves g (optArgumentList as) (optArgumentList (as.map (mapArguments id g))) := by
  cases as with
  | none => exact .eps
  | some as => exact mv_argumentList hg as

theorem mv_constType (t : ConstType) : Moves g (constType t) (constType (mapConstType g t)) := by
  cases t with
  | identifier i q => exact mv_null (.typeName hg (by decide +kernel) i) q
  | integer t q => exact mv_null (mv_integerType t) q
  | floatingPoint t q => exact mv_null (mv_floatingPointType t) q
  | _ => exact mv_null (.tok (by decide +kernel)) _

theorem mv_returnNamed (r : ReturnType) (i : Option Str) :
    Moves g (returnNamed r i) (returnNamed (mapReturnType id g r) (i.map g)) := by
  cases i with
  | none => exact mv_returnType hg r
  | some i => exact .named hg (mv_returnType hg r)

theorem mv_const (m : ConstMember) : Moves g (constMember m) (constMember (mapConst id g m)) :=
  .seq (mv_attributes hg _) (.cons (by decide +kernel) (.seq (.named hg (mv_constType hg _)) (.cons (by decide)
    (.seq (mv_constValue _) mv_semi))))

theorem mv_operation (r : ReturnType) (i : Option Str) (as : List Argument) :
    Moves g (returnNamed r i ⨾ argumentList as ⨾ tok c!";")
      (returnNamed (mapReturnType id g r) (i.map g) ⨾ argumentList (mapArguments id g as) ⨾ tok c!";") :=
  .seq (mv_returnNamed hg r i) (.seq (mv_argumentList hg as) mv_semi)

omit hg in
theorem mv_modifier (m : Option StringifierOrInheritOrStatic) : Moves g (modifier m) (modifier m) := by
  rcases m with _ | (_ | _ | _)
  · exact .eps
  all_goals exact .tok (by decide +kernel)

theorem mv_modified {m : Option StringifierOrStatic} {A A' : Lang} (h : Moves g A A') :
    Moves g (modified m A) (modified m A') := by
  rcases m with _ | (_ | _)
  · exact .avoiding hg (by decide +kernel) h
  all_goals exact .cons (by decide +kernel) h

theorem mv_specialised {m : Option Special} {A A' : Lang} (h : Moves g A A') :
    Moves g (specialised m A) (specialised m A') := by
  rcases m with _ | (_ | _ | _ | _)
  · exact .avoiding hg (by decide +kernel) h
  all_goals exact .cons (by decide +kernel) h

theorem mv_optWord {b : Bool} {w : Str} (hw : isFixed w = true) {A A' : Lang} (h : Moves g A A') :
    Moves g (optWord b w A) (optWord b w A') := by
  cases b
  · exact .avoiding hg (by simp [hw]) h
  · exact .cons hw h

theorem mv_typePair (p : AttributedType × AttributedType) : Moves g (typePair p) (typePair (mapPair id g p)) :=
  .seq (mv_attributedType hg _) (.seq mv_comma (mv_attributedType hg _))

omit hg in
theorem mv_attribute {A A' : Lang} (h : Moves g A A') (r : Bool) :
    Moves g (optTok r c!"readonly" ⨾ tok c!"attribute" ⨾ A ⨾ tok c!";")
      (optTok r c!"readonly" ⨾ tok c!"attribute" ⨾ A' ⨾ tok c!";") :=
  .seq (.opt r (by decide +kernel)) (.cons (by decide +kernel) (.seq h mv_semi))

theorem mv_stringifier (m : StringifierMember) : Moves g (stringifierMember m) (stringifierMember (mapStringifier id g m)) :=
  .seq (mv_attributes hg _) (.cons (by decide +kernel) mv_semi)

theorem mv_interfaceMember (m : InterfaceMember) :
    Moves g (interfaceMember m) (interfaceMember (mapInterfaceMember id g m)) := by
  match m with
  | .const m => exact mv_const hg m
  | .attribute m =>
    exact .seq (mv_attributes hg _) (.seq (mv_modifier _) (mv_attribute (mv_namedAttributed hg _ _) _))
  | .constructor m =>
    exact .seq (mv_attributes hg _) (.cons (by decide +kernel) (.seq (mv_argumentList hg _) mv_semi))
  | .operation m =>
    exact .seq (mv_attributes hg _) (.avoiding hg (by decide +kernel)
      (mv_modified hg (mv_specialised hg (mv_operation hg _ _ _))))
  | .iterable (.single as t) =>
    exact .seq (mv_attributes hg _) (.cons (by decide +kernel) (.seq (mv_angles (mv_attributedType hg _)) mv_semi))
  | .iterable (.double as t) =>
    exact .seq (mv_attributes hg _) (.cons (by decide +kernel) (.seq (mv_angles (mv_typePair hg _)) mv_semi))
  | .asyncIterable (.single as t args) =>
    exact .seq (mv_attributes hg _) (.cons (by decide +kernel) (.cons (by decide +kernel)
      (.seq (mv_angles (mv_attributedType hg _)) (.seq (mv_optArgumentList hg _) mv_semi))))
  | .asyncIterable (.double as t args) =>
    exact .seq (mv_attributes hg _) (.cons (by decide +kernel) (.cons (by decide +kernel)
      (.seq (mv_angles (mv_typePair hg _)) (.seq (mv_optArgumentList hg _) mv_semi))))
  | .maplike m =>
    exact .seq (mv_attributes hg _) (.seq (.opt _ (by decide +kernel)) (.cons (by decide +kernel)
      (.seq (mv_angles (mv_typePair hg _)) mv_semi)))
  | .setlike m =>
    exact .seq (mv_attributes hg _) (.seq (.opt _ (by decide +kernel)) (.cons (by decide +kernel)
      (.seq (mv_angles (mv_attributedType hg _)) mv_semi)))
  | .stringifier m => exact mv_stringifier hg m

theorem mv_mixinMember (m : MixinMember) : Moves g (mixinMember m) (mixinMember (mapMixinMember id g m)) := by
  match m with
  | .const m => exact mv_const hg m
  | .operation m => exact .seq (mv_attributes hg _) (mv_optWord hg (by decide +kernel) (mv_operation hg _ _ _))
  | .attribute m =>
    exact .seq (mv_attributes hg _) (.seq (.opt _ (by decide +kernel)) (mv_attribute (mv_namedAttributed hg _ _) _))
  | .stringifier m => exact mv_stringifier hg m

theorem mv_namespaceMember (m : NamespaceMember) :
    Moves g (namespaceMember m) (namespaceMember (mapNamespaceMember id g m)) := by
  match m with
  | .const m => exact mv_const hg m
  | .operation m => exact .seq (mv_attributes hg _) (mv_operation hg _ _ _)
  | .attribute m => exact .seq (mv_attributes hg _) (mv_attribute (mv_namedAttributed hg _ _) true)

theorem mv_dictionaryMember (m : DictionaryMember) :
    Moves g (dictionaryMember m) (dictionaryMember (mapDictionaryMember id g m)) :=
  .seq (mv_attributes hg _) (mv_optWord hg (by decide +kernel) (.seq (.named hg (mv_type hg _))
    (.seq (mv_default _) mv_semi)))

/-! ## Definitions -/

theorem mv_inheritance (i : Option Str) : Moves g (inheritance i) (inheritance (i.map g)) := by
  cases i with
  | none => exact .eps
  | some i => exact .cons (by decide) (.name hg i)

omit hg in
theorem mv_body {α : Type} {L : α → Lang} {k : α → α} {ms : List α} (h : ∀ m, Moves g (L m) (L (k m))) :
    Moves g (body L ms) (body L (ms.map k)) :=
  .seq (mv_braces (.concat fun m _ => h m)) mv_semi

theorem mv_definition (d : Definition) : Moves g (definition d) (definition (mapDefinition id g d)) := by
  have hi : ∀ (i : Str) (inh : Option Str) ms, Moves g (name i ⨾ inheritance inh ⨾ body interfaceMember ms)
      (name (g i) ⨾ inheritance (inh.map g) ⨾ body interfaceMember (ms.map (mapInterfaceMember id g))) := fun i inh ms =>
    .seq (.name hg i) (.seq (mv_inheritance hg inh) (mv_body (mv_interfaceMember hg)))
  match d with
  | .callback as i r args =>
    exact .seq (mv_attributes hg _) (.cons (by decide +kernel) (.seq (.name hg i) (.cons (by decide)
      (.seq (mv_returnType hg r) (.seq (mv_argumentList hg _) mv_semi)))))
  | .callbackInterface as i inh ms =>
    exact .seq (mv_attributes hg _) (.cons (by decide +kernel) (.cons (by decide +kernel) (hi i inh ms)))
  | .interface as i inh ms => exact .seq (mv_attributes hg _) (.cons (by decide +kernel) (hi i inh ms))
  | .interfaceMixin as i ms =>
    exact .seq (mv_attributes hg _) (.cons (by decide +kernel) (.cons (by decide +kernel)
      (.seq (.name hg i) (mv_body (mv_mixinMember hg)))))
  | .namespace as i ms =>
    exact .seq (mv_attributes hg _) (.cons (by decide +kernel) (.seq (.name hg i) (mv_body (mv_namespaceMember hg))))
  | .dictionary as i inh ms =>
    exact .seq (mv_attributes hg _) (.cons (by decide +kernel) (.seq (.name hg i) (.seq (mv_inheritance hg inh)
      (mv_body (mv_dictionaryMember hg)))))
  | .partialInterface as i ms =>
    exact .seq (mv_attributes hg _) (.cons (by decide +kernel) (.cons (by decide +kernel)
      (.seq (.name hg i) (mv_body (mv_interfaceMember hg)))))
  | .partialInterfaceMixin as i ms =>
    exact .seq (mv_attributes hg _) (.cons (by decide +kernel) (.cons (by decide +kernel) (.cons (by decide +kernel)
      (.seq (.name hg i) (mv_body (mv_mixinMember hg))))))
  | .partialDictionary as i ms =>
    exact .seq (mv_attributes hg _) (.cons (by decide +kernel) (.cons (by decide +kernel)
      (.seq (.name hg i) (mv_body (mv_dictionaryMember hg)))))
  | .partialNamespace as i ms =>
    exact .seq (mv_attributes hg _) (.cons (by decide +kernel) (.cons (by decide +kernel)
      (.seq (.name hg i) (mv_body (mv_namespaceMember hg)))))
  | .enum as i vs =>
    have hv : Moves g (enumValues vs) (enumValues vs) := by
      rintro ls ls' hp ⟨hv, c, h⟩
      refine ⟨hv, c, ?_⟩
      have := Moves.seq (Moves.sepBy mv_comma (l := vs) (k := id) fun v _ => .string v) (.opt c fixed_comma) ls ls' hp h
      simpa using this
    exact .seq (mv_attributes hg _) (.cons (by decide +kernel) (.seq (.name hg i) (.seq (mv_braces hv) mv_semi)))
  | .typedef as t i =>
    exact .seq (mv_attributes hg _) (.cons (by decide +kernel) (.seq (mv_namedAttributed hg _ _) mv_semi))
  | .includesStatement as l r =>
    exact .seq (mv_attributes hg _) (.seq (.avoiding hg (by decide +kernel) (.name hg l)) (.cons (by decide +kernel)
      (.seq (.name hg r) mv_semi)))
  | .implements as l r =>
    exact .seq (mv_attributes hg _) (.seq (.avoiding hg (by decide +kernel) (.name hg l)) (.cons (by decide +kernel)
      (.seq (.name hg r) mv_semi)))

theorem mv_definitions (ds : List Definition) : Moves g (definitions ds) (definitions (rename g ds)) :=
  .concat fun d _ => mv_definition hg d

/-! ## Checking renamings -/

omit hg

def isFree (i : Str) : Bool :=
  (match i with | c :: v => c.isAlpha && v.all isIdentChar | [] => false) && !keywords.contains i

theorem isFree_sound {i : Str} (h : isFree i = true) : Free i := by
  simp only [isFree, Bool.and_eq_true, Bool.not_eq_true', List.contains_eq_mem, decide_eq_false_iff_not] at h
  refine ⟨?_, h.2⟩
  cases i with
  | nil => simp at h
  | cons c v =>
    simp at h
    exact word_iff.2 ⟨c, v, rfl, h.1.1, h.1.2⟩

def unescape (w : Str) : Str :=
  match w with
  | '_' :: i => i
  | i => i

def isRenamed (g : Str → Str) (w w' : Str) : Bool :=
  if isFree (unescape w) then w' == g (unescape w) || w' == '_' :: g (unescape w)
  else (isFixed w || keywords.contains (unescape w)) && w == w'

theorem isRenamed_sound {w w' : Str} (h : isRenamed g w w' = true) : Renamed g w w' := by
  unfold isRenamed at h
  split at h
  · rename_i hi
    refine .name (isFree_sound hi) ?_ (by simpa using h)
    unfold unescape
    split <;> simp
  · simp only [Bool.and_eq_true, Bool.or_eq_true, beq_iff_eq] at h
    obtain ⟨h, rfl⟩ := h
    refine .same fun i hi hw => ?_
    rcases h with h | h
    · exact isFixed_sound h hi hw
    · obtain ⟨c, v, rfl, hc⟩ := free_head hi
      have n1 : c ≠ '_' := by rintro rfl; simp [Char.isAlpha, Char.isUpper, Char.isLower] at hc
      simp at hw
      have : unescape w = c :: v := by
        rcases hw with rfl | rfl
        · unfold unescape
          split
          · simp_all
          · rfl
        · rfl
      rw [this] at h
      exact hi.2 (by simpa using h)

def allRenamed (g : Str → Str) : List Str → List Str → Bool
  | [], [] => true
  | w :: ls, w' :: ls' => isRenamed g w w' && allRenamed g ls ls'
  | _, _ => false

theorem allRenamed_sound : ∀ {ls ls' : List Str}, allRenamed g ls ls' = true → Pointwise (Renamed g) ls ls'
  | [], [], _ => .nil
  | w :: ls, w' :: ls', h => by
    simp only [allRenamed, Bool.and_eq_true] at h
    exact .cons (isRenamed_sound h.1) (allRenamed_sound h.2)

end Verif
