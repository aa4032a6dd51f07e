import Verif.Spec.Print
import Verif.Proof.Document
import Verif.Proof.Append

/-!
# What is printed is a spelling

`WfDefinition d` holds exactly of the definitions that have a spelling, and then
`printDefinition d` is one.
-/

namespace Verif
open Nom Spec

theorem seq_assoc (A B C : Lang) : ((A ⨾ B) ⨾ C) = (A ⨾ B ⨾ C) := by
  funext ls
  apply propext
  constructor
  · rintro ⟨_, c, rfl, ⟨a, b, rfl, ha, hb⟩, hc⟩
    exact ⟨a, b ++ c, List.append_assoc _ _ _, ha, b, c, rfl, hb, hc⟩
  · rintro ⟨a, _, rfl, ha, b, c, rfl, hb, hc⟩
    exact ⟨a ++ b, c, (List.append_assoc _ _ _).symm, ⟨a, b, rfl, ha, hb⟩, hc⟩

/-- Each element of the second list belongs to the corresponding element of the first. -/
inductive All₂ : List Lang → List (List Str) → Prop where
  | nil : All₂ [] []
  | cons {A : Lang} {As : List Lang} {p : List Str} {ps : List (List Str)} (h : A p) (t : All₂ As ps) :
      All₂ (A :: As) (p :: ps)

namespace Pr

variable {A B : Lang} {w i : Str} {a b ls : List Str}

theorem tok : Spec.tok w [w] := rfl

theorem cons (hb : B b) : (Spec.tok w ⨾ B) (w :: b) := ⟨[w], b, rfl, rfl, hb⟩

theorem seq (ha : A a) (hb : B b) : (A ⨾ B) (a ++ b) := ⟨a, b, rfl, ha, hb⟩

theorem last (ha : A a) (hb : B []) : (A ⨾ B) a := ⟨a, [], by simp, ha, hb⟩

theorem eps (hb : B b) : (Spec.eps ⨾ B) b := ⟨[], b, rfl, rfl, hb⟩

theorem nameCons (h : WfName i) (hb : B b) : (Spec.name i ⨾ B) (('_' :: i) :: b) :=
  ⟨_, b, rfl, ⟨h, .inr rfl⟩, hb⟩

theorem name (h : WfName i) : Spec.name i ['_' :: i] := ⟨h, .inr rfl⟩

theorem typeName {l : List Str} (h : WfName i) : Spec.typeName l i ['_' :: i] := ⟨h, .inr rfl⟩

theorem opt (q : Bool) : optTok q w (printOpt q w) := by
  cases q <;> rfl

theorem named {T : Lang} (h : T a) (hi : WfName i) : Spec.named T i (a ++ ['_' :: i]) := by
  refine ⟨a, ['_' :: i], rfl, h, name hi, fun h => ?_⟩
  have hlast : ∀ l ∈ twoWordTypes, ∀ x ∈ l.getLast?, x.head? ≠ some '_' := by decide
  exact hlast _ h ('_' :: i) (by simp) rfl

theorem sepBy {sep : Str} : ∀ {As : List Lang} {ps : List (List Str)},
    All₂ As ps → Spec.sepBy (Spec.tok sep) As (printSep sep ps)
  | _, _, .nil => rfl
  | _, _, .cons h .nil => h
  | _, _, .cons h (.cons h' t) => by
    simp only [Spec.sepBy, printSep, List.append_assoc, List.cons_append, List.nil_append]
    exact seq h (cons (sepBy (.cons h' t)))

theorem concat : ∀ {As : List Lang} {ps : List (List Str)},
    All₂ As ps → Spec.concat As ps.flatten
  | _, _, .nil => rfl
  | _, _, .cons h t => seq h (concat t)

theorem forall₂ {α : Type} {L : α → Lang} {p : α → List Str} :
    ∀ {ms : List α}, (∀ m ∈ ms, L m (p m)) → All₂ (ms.map L) (ms.map p)
  | [], _ => .nil
  | m :: ms, h => .cons (h m (by simp)) (forall₂ fun m' hm => h m' (by simp [hm]))

theorem string {v : Str} (h : WfString v) : Spec.string v (printString v) := ⟨h, rfl⟩

theorem names {is : List Str} (h : ∀ j ∈ is, WfName j) :
    All₂ (is.map Spec.name) (is.map printName) :=
  forall₂ fun j hj => name (h j hj)

end Pr

/-- The words that select a reading when they come first. -/
def avoided : List Str :=
  [c!"optional", c!"[", c!"stringifier", c!"static", c!"getter", c!"setter", c!"deleter", c!"legacycaller",
   c!"constructor", c!"typedef", c!"required"]

/-- The first lexeme is none of `ws`. -/
def Clear (ws : List Str) (ls : List Str) : Prop := ∀ w ∈ ls.head?, w ∉ ws

theorem Clear.avoid {ws ls : List Str} {p : Str} {ps : List Str} (h : Clear ws ls) (hp : p ∈ ws) :
    ¬ (p :: ps) <+: ls := by
  rintro ⟨r, rfl⟩
  exact h p rfl hp

theorem Clear.append {ws ls : List Str} (h : Clear ws ls) (hl : ls ≠ []) (b : List Str) :
    Clear ws (ls ++ b) := by
  cases ls with
  | nil => exact absurd rfl hl
  | cons x ls => exact h

theorem ne_under {w i : Str} (h : w.head? ≠ some '_') : '_' :: i ≠ w := by
  rintro rfl
  exact h rfl

theorem clear_under {i : Str} {ls : List Str} (ws : List Str) (h : ∀ w ∈ ws, w.head? ≠ some '_') :
    Clear ws (('_' :: i) :: ls) := by
  intro w hw hm
  simp at hw
  subst hw
  exact h _ hm rfl

theorem clear_cons {w : Str} {ws ls : List Str} (h : w ∉ ws) : Clear ws (w :: ls) := by
  rintro _ ⟨⟩
  exact h

theorem clear_nonAny (t : NonAnyType) :
    printNonAnyType t ≠ [] ∧ Clear (c!"any" :: c!"undefined" :: avoided) (printNonAnyType t) := by
  cases t with
  | identifier i q => exact ⟨by simp [printNonAnyType, printName], clear_under _ (by decide)⟩
  | integer t q => rcases t with u | u | u <;> cases u <;> exact ⟨by simp [printNonAnyType, printIntegerType, printOpt], clear_cons (by decide)⟩
  | floatingPoint t q => rcases t with u | u <;> cases u <;> exact ⟨by simp [printNonAnyType, printFloatingPointType, printOpt], clear_cons (by decide)⟩
  | builtin b q => cases b <;> exact ⟨by simp [printNonAnyType], clear_cons (by decide)⟩
  | _ =>
    refine ⟨by simp [printNonAnyType], ?_⟩
    simp only [printNonAnyType, List.append_assoc, List.cons_append, List.nil_append, Clear, List.head?_cons]
    rintro _ ⟨⟩
    decide

theorem clear_string (t : NonAnyType) (h : ¬ IsStringType t) :
    Clear [c!"ByteString", c!"DOMString", c!"USVString"] (printNonAnyType t) := by
  cases t with
  | identifier i q => exact clear_under _ (by decide)
  | integer t q => rcases t with u | u | u <;> cases u <;> exact clear_cons (by decide)
  | floatingPoint t q => rcases t with u | u <;> cases u <;> exact clear_cons (by decide)
  | builtin b q => cases b <;> first | exact absurd trivial h | exact clear_cons (by decide)
  | _ =>
    simp only [printNonAnyType, List.append_assoc, List.cons_append, List.nil_append, Clear, List.head?_cons]
    rintro _ ⟨⟩
    decide

theorem clear_type (t : Ty) : printType t ≠ [] ∧ Clear (c!"undefined" :: avoided) (printType t) := by
  match t with
  | .single .any => exact ⟨by simp [printType, printSingleType], by simp [printType, printSingleType, Clear]; decide⟩
  | .single (.nonAny t) =>
    exact ⟨(clear_nonAny t).1, fun w hw hm => (clear_nonAny t).2 w hw (List.mem_cons_of_mem _ hm)⟩
  | .union ms q =>
    refine ⟨by simp [printType], ?_⟩
    simp only [printType, Clear, List.cons_append, List.head?_cons]
    rintro _ ⟨⟩
    decide

theorem clear_returnType (t : ReturnType) : printReturnType t ≠ [] ∧ Clear avoided (printReturnType t) := by
  cases t with
  | undefined => exact ⟨by simp [printReturnType], clear_cons (by decide)⟩
  | type t => exact ⟨(clear_type t).1, fun w hw hm => (clear_type t).2 w hw (List.mem_cons_of_mem _ hm)⟩

theorem pr_integerType (t : IntegerType) : integerType t (printIntegerType t) := by
  rcases t with u | u | u <;> exact Pr.seq (Pr.opt u) (by first | exact Pr.cons Pr.tok | exact Pr.tok)

theorem pr_floatingPointType (t : FloatingPointType) : floatingPointType t (printFloatingPointType t) := by
  rcases t with u | u <;> exact Pr.seq (Pr.opt u) Pr.tok

theorem pr_integer {i : IntegerLit} (h : WfInteger i) : integerLit i (printInteger i) := by
  cases i <;> exact ⟨h, rfl⟩

theorem pr_float {f : FloatLit} (h : WfFloat f) : floatLit f (printFloat f) := by
  cases f <;> first | exact ⟨h, rfl⟩ | rfl

theorem pr_boolean (b : Bool) : booleanLit b (printBoolean b) := by
  cases b <;> rfl

theorem pr_defaultValue {d : DefaultValue} (h : WfDefaultValue d) : defaultValue d (printDefaultValue d) := by
  cases d with
  | boolean b => exact pr_boolean b
  | emptyArray => exact Pr.cons Pr.tok
  | emptyDictionary => exact Pr.cons Pr.tok
  | float f => exact pr_float h
  | integer i => exact pr_integer h
  | null => rfl
  | string v => exact Pr.string h

theorem pr_constValue {d : ConstValue} (h : WfConstValue d) : constValue d (printConstValue d) := by
  cases d with
  | boolean b => exact pr_boolean b
  | float f => exact pr_float h
  | integer i => exact pr_integer h
  | null => rfl

theorem pr_default {d : Option DefaultValue} (h : WfDefault d) : Spec.default d (printDefault d) := by
  cases d with
  | none => rfl
  | some v => exact Pr.cons (pr_defaultValue h)

theorem pr_idOrString {x : IdentifierOrString} (h : WfIdentifierOrString x) :
    identifierOrString x (printIdentifierOrString x) := by
  cases x with
  | identifier i => exact Pr.name h
  | string v => exact Pr.string h

theorem pr_namedAttributed {t : AttributedType} {i : Str} (hi : WfName i)
    (ha : ∀ as u, t = .mk as u → attributes as (printAttributes as) ∧ type u (printType u)) :
    namedAttributed t i (printAttributedType t ++ ['_' :: i]) := by
  cases t with
  | mk as u =>
    obtain ⟨h1, h2⟩ := ha as u rfl
    simp only [namedAttributed, printAttributedType, List.append_assoc]
    exact Pr.seq h1 (Pr.named h2 hi)

mutual

theorem pr_type : ∀ t, WfType t → type t (printType t)
  | .single t, h => by
    simp only [type, printType]
    exact pr_singleType t (by simpa only [WfType] using h)
  | .union ms q, h => by
    simp only [type, printType, parens, seq_assoc, List.append_assoc, List.cons_append, List.nil_append]
    exact Pr.cons (Pr.seq (Pr.sepBy (pr_unionMembers ms (by simpa only [WfType] using h))) (Pr.cons (Pr.opt q)))

theorem pr_singleType : ∀ t, WfSingleType t → singleType t (printSingleType t)
  | .any, _ => by simp only [singleType, printSingleType]; exact Pr.tok
  | .nonAny t, h => by
    simp only [singleType, printSingleType]
    refine ⟨pr_nonAnyType t (by simpa only [WfSingleType] using h), ?_⟩
    simp only [List.mem_singleton, forall_eq]
    exact (clear_nonAny t).2.avoid (by simp)

theorem pr_nonAnyType : ∀ t, WfNonAnyType t → nonAnyType t (printNonAnyType t)
  | .promise r, h => by
    simp only [nonAnyType, printNonAnyType, angles, seq_assoc, List.append_assoc, List.cons_append, List.nil_append]
    exact Pr.cons (Pr.cons (Pr.seq (pr_returnType r (by simpa only [WfNonAnyType] using h)) Pr.tok))
  | .integer t q, h => by
    simp only [nonAnyType, printNonAnyType]
    exact Pr.seq (pr_integerType t) (Pr.opt q)
  | .floatingPoint t q, h => by
    simp only [nonAnyType, printNonAnyType]
    exact Pr.seq (pr_floatingPointType t) (Pr.opt q)
  | .builtin b q, h => by
    simp only [nonAnyType, printNonAnyType]
    exact Pr.cons (Pr.opt q)
  | .sequence t q, h => by
    simp only [nonAnyType, printNonAnyType, angles, seq_assoc, List.append_assoc, List.cons_append, List.nil_append]
    exact Pr.cons (Pr.cons (Pr.seq (pr_type t (by simpa only [WfNonAnyType] using h)) (Pr.cons (Pr.opt q))))
  | .frozenArray t q, h => by
    simp only [nonAnyType, printNonAnyType, angles, seq_assoc, List.append_assoc, List.cons_append, List.nil_append]
    exact Pr.cons (Pr.cons (Pr.seq (pr_type t (by simpa only [WfNonAnyType] using h)) (Pr.cons (Pr.opt q))))
  | .record k v q, h => by
    simp only [WfNonAnyType] at h
    simp only [nonAnyType, printNonAnyType, angles, comma, seq_assoc, List.append_assoc, List.cons_append, List.nil_append]
    exact Pr.cons (Pr.cons (Pr.seq (pr_recordKeyType k h.1) (Pr.cons (Pr.seq (pr_type v h.2) (Pr.cons (Pr.opt q))))))
  | .identifier i q, h => by
    simp only [WfNonAnyType] at h
    simp only [nonAnyType, printNonAnyType]
    exact Pr.seq (Pr.typeName h) (Pr.opt q)

theorem pr_recordKeyType : ∀ t, WfRecordKeyType t → recordKeyType t (printRecordKeyType t)
  | .byte, _ => by simp only [recordKeyType, printRecordKeyType]; exact Pr.tok
  | .dom, _ => by simp only [recordKeyType, printRecordKeyType]; exact Pr.tok
  | .usv, _ => by simp only [recordKeyType, printRecordKeyType]; exact Pr.tok
  | .nonAny t, h => by
    simp only [WfRecordKeyType] at h
    simp only [recordKeyType, printRecordKeyType]
    refine ⟨pr_nonAnyType t h.1, ?_⟩
    have := clear_string t h.2
    simp only [List.mem_cons, List.not_mem_nil, or_false, forall_eq_or_imp, forall_eq]
    exact ⟨this.avoid (by simp), this.avoid (by simp), this.avoid (by simp)⟩

theorem pr_unionMember : ∀ t, WfUnionMember t → unionMember t (printUnionMember t)
  | .single as t, h => by
    simp only [WfUnionMember] at h
    simp only [unionMember, printUnionMember]
    exact Pr.seq (pr_attributes as h.1) (pr_nonAnyType t h.2)
  | .union ms q, h => by
    simp only [unionMember, printUnionMember, parens, seq_assoc, List.append_assoc, List.cons_append, List.nil_append]
    exact Pr.cons (Pr.seq (Pr.sepBy (pr_unionMembers ms (by simpa only [WfUnionMember] using h))) (Pr.cons (Pr.opt q)))

theorem pr_unionMembers : ∀ ms, WfUnionMembers ms →
    All₂ (unionMembers ms) (printUnionMembers ms)
  | [], _ => by simp only [unionMembers, printUnionMembers]; exact .nil
  | m :: ms, h => by
    simp only [WfUnionMembers] at h
    simp only [unionMembers, printUnionMembers]
    exact .cons (pr_unionMember m h.1) (pr_unionMembers ms h.2)

theorem pr_returnType : ∀ t, WfReturnType t → returnType t (printReturnType t)
  | .undefined, _ => by simp only [returnType, printReturnType]; exact Pr.tok
  | .type t, h => by
    simp only [returnType, printReturnType]
    refine ⟨pr_type t (by simpa only [WfReturnType] using h), ?_⟩
    simp only [List.mem_singleton, forall_eq]
    exact (clear_type t).2.avoid (by simp)

theorem pr_extAttr : ∀ t, WfExtAttr t → extAttr t (printExtAttr t)
  | .argList i args, h => by
    simp only [WfExtAttr] at h
    simp only [extAttr, printExtAttr, parens, comma, printName, List.append_assoc, List.cons_append, List.nil_append]
    exact Pr.nameCons h.1 (Pr.cons (Pr.seq (Pr.sepBy (pr_arguments args h.2)) Pr.tok))
  | .namedArgList l r args, h => by
    simp only [WfExtAttr] at h
    simp only [extAttr, printExtAttr, parens, comma, printName, List.append_assoc, List.cons_append, List.nil_append]
    exact Pr.nameCons h.1 (Pr.cons (Pr.nameCons h.2.1 (Pr.cons (Pr.seq (Pr.sepBy (pr_arguments args h.2.2)) Pr.tok))))
  | .identList i is, h => by
    simp only [WfExtAttr] at h
    simp only [extAttr, printExtAttr, parens, comma, List.append_assoc, List.cons_append, List.nil_append]
    exact Pr.nameCons h.1 (Pr.cons (Pr.cons (Pr.seq (Pr.sepBy (Pr.names h.2)) Pr.tok)))
  | .ident l r, h => by
    simp only [WfExtAttr] at h
    simp only [extAttr, printExtAttr, printName, List.append_assoc, List.cons_append, List.nil_append]
    exact Pr.nameCons h.1 (Pr.cons (pr_idOrString h.2))
  | .wildcard l, h => by
    simp only [WfExtAttr] at h
    simp only [extAttr, printExtAttr, printName, List.append_assoc, List.cons_append, List.nil_append]
    exact Pr.nameCons h (Pr.cons Pr.tok)
  | .noArgs i, h => by
    simp only [WfExtAttr] at h
    simp only [extAttr, printExtAttr, printName]
    exact Pr.name h

theorem pr_extAttrs : ∀ as, WfExtAttrs as →
    All₂ (extAttrs as) (printExtAttrs as)
  | [], _ => by simp only [extAttrs, printExtAttrs]; exact .nil
  | a :: as, h => by
    simp only [WfExtAttrs] at h
    simp only [extAttrs, printExtAttrs]
    exact .cons (pr_extAttr a h.1) (pr_extAttrs as h.2)

theorem pr_attributes : ∀ as, WfAttributes as → attributes as (printAttributes as)
  | none, _ => by simp only [attributes, printAttributes]; rfl
  | some as, h => by
    simp only [WfAttributes] at h
    simp only [attributes, printAttributes, brackets, comma, List.cons_append]
    exact Pr.cons (Pr.seq (Pr.sepBy (pr_extAttrs as h)) Pr.tok)

theorem pr_argument : ∀ a, WfArgument a → argument a (printArgument a)
  | .single as optional (.mk as' t) i d, h => by
    simp only [WfArgument, WfAttributedType] at h
    obtain ⟨h1, ⟨h2, h3⟩, h4, h5, h6⟩ := h
    have hn : namedAttributed (.mk as' t) i (printAttributedType (.mk as' t) ++ ['_' :: i]) := by
      simp only [namedAttributed, printAttributedType, List.append_assoc]
      exact Pr.seq (pr_attributes as' h2) (Pr.named (pr_type t h3) h4)
    simp only [argument, printArgument, List.append_assoc]
    refine Pr.seq (pr_attributes as h1) ?_
    cases optional with
    | true =>
      simp only [if_true, printOpt, List.cons_append, List.nil_append, printName]
      rw [List.append_cons]
      exact Pr.cons (Pr.seq hn (pr_default h5))
    | false =>
      obtain ⟨rfl, h6⟩ := h6 rfl
      simp only [printOpt, Bool.false_eq_true, if_false, List.nil_append, printDefault, printName, List.append_nil]
      refine ⟨trivial, hn, ?_⟩
      have hc := (clear_type t)
      cases as' with
      | none =>
        simp only [printAttributedType, printAttributes, List.nil_append]
        have hc := hc.2.append hc.1 ['_' :: i]
        intro p hp
        cases as <;> simp at hp
        · rcases hp with rfl | rfl
          · exact hc.avoid (by decide)
          · exact hc.avoid (by decide)
        · subst hp
          exact hc.avoid (by decide)
      | some l =>
        cases as with
        | none => exact absurd (h6 rfl) (by simp [hasAttributes])
        | some _ =>
          intro p hp
          simp at hp
          subst hp
          simp [printAttributedType, printAttributes]
  | .variadic as t i, h => by
    simp only [WfArgument] at h
    simp only [argument, printArgument, List.append_assoc, List.cons_append, List.nil_append]
    exact Pr.seq (pr_attributes as h.1) (Pr.seq (pr_type t h.2.1) (Pr.cons (Pr.name h.2.2)))

theorem pr_arguments : ∀ as, WfArguments as →
    All₂ (arguments as) (printArguments as)
  | [], _ => by simp only [arguments, printArguments]; exact .nil
  | a :: as, h => by
    simp only [WfArguments] at h
    simp only [arguments, printArguments]
    exact .cons (pr_argument a h.1) (pr_arguments as h.2)

end

theorem pr_attributedType {t : AttributedType} (h : WfAttributedType t) :
    attributedType t (printAttributedType t) := by
  cases t with
  | mk as u =>
    simp only [WfAttributedType] at h
    simp only [attributedType, printAttributedType]
    exact Pr.seq (pr_attributes as h.1) (pr_type u h.2)

theorem pr_namedAttr {t : AttributedType} {i : Str} (h : WfAttributedType t) (hi : WfName i) :
    namedAttributed t i (printAttributedType t ++ ['_' :: i]) :=
  pr_namedAttributed hi fun as u e => by
    subst e
    simp only [WfAttributedType] at h
    exact ⟨pr_attributes as h.1, pr_type u h.2⟩

theorem pr_argumentList {as : List Argument} (h : WfArguments as) :
    argumentList as (printArgumentList as) := by
  simp only [argumentList, printArgumentList, parens, comma, List.cons_append]
  exact Pr.cons (Pr.seq (Pr.sepBy (pr_arguments as h)) Pr.tok)

theorem pr_optArgumentList {as : Option (List Argument)} (h : WfOptArguments as) :
    optArgumentList as (printOptArgumentList as) := by
  cases as with
  | none => rfl
  | some as => exact pr_argumentList h

theorem pr_constType {t : ConstType} (h : WfConstType t) : constType t (printConstType t) := by
  cases t with
  | integer t q => exact Pr.seq (pr_integerType t) (Pr.opt q)
  | floatingPoint t q => exact Pr.seq (pr_floatingPointType t) (Pr.opt q)
  | identifier i q => exact Pr.seq (Pr.typeName h) (Pr.opt q)
  | _ => exact Pr.cons (Pr.opt _)

theorem pr_returnNamed {r : ReturnType} {i : Option Str} (h : WfReturnType r) (hi : WfOptName i) :
    returnNamed r i (printReturnType r ++ printOptName i) := by
  cases i with
  | none => simpa [returnNamed, printOptName] using pr_returnType r h
  | some i => exact Pr.named (pr_returnType r h) hi

theorem pr_const {m : ConstMember} (h : WfConst m) : constMember m (printConst m) := by
  obtain ⟨h1, h2, h3, h4⟩ := h
  simp only [constMember, printConst, List.append_assoc, List.cons_append, List.nil_append, printName]
  rw [List.append_cons (printConstType m.constType)]
  exact Pr.seq (pr_attributes _ h1) (Pr.cons (Pr.seq (Pr.named (pr_constType h2) h3)
    (Pr.cons (Pr.seq (pr_constValue h4) Pr.tok))))

theorem pr_attribute {r : Bool} {t : AttributedType} {i : Str} (ht : WfAttributedType t) (hi : WfName i) :
    (optTok r c!"readonly" ⨾ tok c!"attribute" ⨾ namedAttributed t i ⨾ tok c!";") (printAttribute r t i) := by
  simp only [printAttribute, List.append_assoc, List.cons_append, List.nil_append, printName]
  rw [List.append_cons (printAttributedType t)]
  exact Pr.seq (Pr.opt r) (Pr.cons (Pr.seq (pr_namedAttr ht hi) Pr.tok))

theorem pr_operation {r : ReturnType} {i : Option Str} {as : List Argument} (hr : WfReturnType r)
    (hi : WfOptName i) (ha : WfArguments as) :
    (returnNamed r i ⨾ argumentList as ⨾ tok c!";") (printOperation r i as) := by
  have := Pr.seq (pr_returnNamed hr hi) (Pr.seq (pr_argumentList ha) (Pr.tok (w := c!";")))
  simpa only [printOperation, List.append_assoc] using this

theorem clear_operation (r : ReturnType) (i : Option Str) (as : List Argument) :
    printOperation r i as ≠ [] ∧ Clear avoided (printOperation r i as) := by
  have h := clear_returnType r
  simp only [printOperation, List.append_assoc]
  exact ⟨by simp [h.1], h.2.append h.1 _⟩

theorem pr_typePair {p : AttributedType × AttributedType} (h : WfTypePair p) : typePair p (printTypePair p) := by
  have := Pr.seq (pr_attributedType h.1) (Pr.cons (w := c!",") (pr_attributedType h.2))
  simpa only [typePair, comma, printTypePair, List.append_assoc, List.cons_append, List.nil_append] using this

theorem pr_interfaceMember {m : InterfaceMember} (h : WfInterfaceMember m) :
    interfaceMember m (printInterfaceMember m) := by
  match m, h with
  | .const m, h => exact pr_const h
  | .attribute m, ⟨h1, h2, h3⟩ =>
    simp only [interfaceMember, attributeInterfaceMember, printInterfaceMember, List.append_assoc]
    refine Pr.seq (pr_attributes _ h1) (Pr.seq ?_ (pr_attribute h2 h3))
    rcases m.modifier with _ | (_ | _ | _) <;> rfl
  | .constructor m, ⟨h1, h2⟩ =>
    simp only [interfaceMember, constructorInterfaceMember, printInterfaceMember, List.append_assoc,
      List.cons_append, List.nil_append]
    exact Pr.seq (pr_attributes _ h1) (Pr.cons (Pr.seq (pr_argumentList h2) Pr.tok))
  | .operation m, ⟨h1, h2, h3, h4⟩ =>
    simp only [interfaceMember, operationInterfaceMember, printInterfaceMember, List.append_assoc]
    refine Pr.seq (pr_attributes _ h1) ⟨?_, ?_⟩
    · have ho := pr_operation h2 h3 h4
      have hc := clear_operation m.returnType m.identifier m.args
      have hs : specialised m.special (returnNamed m.returnType m.identifier ⨾ argumentList m.args ⨾ tok c!";")
          (printSpecial m.special ++ printOperation m.returnType m.identifier m.args) := by
        rcases m.special with _ | (_ | _ | _ | _)
        · refine ⟨ho, ?_⟩
          intro p hp
          simp at hp
          rcases hp with rfl | rfl | rfl | rfl <;> exact hc.2.avoid (by decide)
        · exact Pr.cons ho
        · exact Pr.cons ho
        · exact Pr.cons ho
        · exact Pr.cons ho
      rcases m.modifier with _ | (_ | _)
      · refine ⟨hs, ?_⟩
        intro p hp
        simp at hp
        rcases hp with rfl | rfl <;> rcases m.special with _ | (_ | _ | _ | _) <;>
          first | exact hc.2.avoid (by decide) | simp [printStringifierOrStatic, printSpecial]
      · exact Pr.cons hs
      · exact Pr.cons hs
    · intro p hp
      simp only [List.mem_singleton] at hp
      subst hp
      have hc := clear_operation m.returnType m.identifier m.args
      rcases m.modifier with _ | (_ | _) <;> rcases m.special with _ | (_ | _ | _ | _) <;>
        first
        | exact hc.2.avoid (by decide)
        | simp [printStringifierOrStatic, printSpecial]
  | .iterable (.single as t), ⟨h1, h2⟩ =>
    simp only [interfaceMember, iterableInterfaceMember, printInterfaceMember, angles, seq_assoc,
      List.append_assoc, List.cons_append, List.nil_append]
    exact Pr.seq (pr_attributes _ h1) (Pr.cons (Pr.cons (Pr.seq (pr_attributedType h2) (Pr.cons Pr.tok))))
  | .iterable (.double as t), ⟨h1, h2⟩ =>
    simp only [interfaceMember, iterableInterfaceMember, printInterfaceMember, angles, seq_assoc,
      List.append_assoc, List.cons_append, List.nil_append]
    exact Pr.seq (pr_attributes _ h1) (Pr.cons (Pr.cons (Pr.seq (pr_typePair h2) (Pr.cons Pr.tok))))
  | .asyncIterable (.single as t args), ⟨h1, h2, h3⟩ =>
    simp only [interfaceMember, asyncIterableInterfaceMember, printInterfaceMember, angles, seq_assoc,
      List.append_assoc, List.cons_append, List.nil_append]
    exact Pr.seq (pr_attributes _ h1) (Pr.cons (Pr.cons (Pr.cons (Pr.seq (pr_attributedType h2)
      (Pr.cons (Pr.seq (pr_optArgumentList h3) Pr.tok))))))
  | .asyncIterable (.double as t args), ⟨h1, h2, h3⟩ =>
    simp only [interfaceMember, asyncIterableInterfaceMember, printInterfaceMember, angles, seq_assoc,
      List.append_assoc, List.cons_append, List.nil_append]
    exact Pr.seq (pr_attributes _ h1) (Pr.cons (Pr.cons (Pr.cons (Pr.seq (pr_typePair h2)
      (Pr.cons (Pr.seq (pr_optArgumentList h3) Pr.tok))))))
  | .maplike m, ⟨h1, h2⟩ =>
    simp only [interfaceMember, maplikeInterfaceMember, printInterfaceMember, angles, seq_assoc,
      List.append_assoc, List.cons_append, List.nil_append]
    exact Pr.seq (pr_attributes _ h1) (Pr.seq (Pr.opt _) (Pr.cons (Pr.cons (Pr.seq (pr_typePair h2)
      (Pr.cons Pr.tok)))))
  | .setlike m, ⟨h1, h2⟩ =>
    simp only [interfaceMember, setlikeInterfaceMember, printInterfaceMember, angles, seq_assoc,
      List.append_assoc, List.cons_append, List.nil_append]
    exact Pr.seq (pr_attributes _ h1) (Pr.seq (Pr.opt _) (Pr.cons (Pr.cons (Pr.seq (pr_attributedType h2)
      (Pr.cons Pr.tok)))))
  | .stringifier m, h => exact Pr.seq (pr_attributes _ h) (Pr.cons Pr.tok)

theorem pr_optWord {b : Bool} {w : Str} {A : Lang} {ls : List Str} (h : A ls) (hc : Clear avoided ls)
    (hw : w ∈ avoided) : optWord b w A (printOpt b w ++ ls) := by
  cases b with
  | true => exact Pr.cons h
  | false =>
    refine ⟨h, ?_⟩
    simp only [List.mem_singleton, forall_eq]
    exact hc.avoid hw

theorem pr_mixinMember {m : MixinMember} (h : WfMixinMember m) : mixinMember m (printMixinMember m) := by
  match m, h with
  | .const m, h => exact pr_const h
  | .operation m, ⟨h1, h2, h3, h4⟩ =>
    simp only [mixinMember, operationMixinMember, printMixinMember, List.append_assoc]
    exact Pr.seq (pr_attributes _ h1) (pr_optWord (pr_operation h2 h3 h4) (clear_operation _ _ _).2 (by decide))
  | .attribute m, ⟨h1, h2, h3⟩ =>
    simp only [mixinMember, attributeMixinMember, printMixinMember, List.append_assoc]
    exact Pr.seq (pr_attributes _ h1) (Pr.seq (Pr.opt _) (pr_attribute h2 h3))
  | .stringifier m, h => exact Pr.seq (pr_attributes _ h) (Pr.cons Pr.tok)

theorem pr_namespaceMember {m : NamespaceMember} (h : WfNamespaceMember m) :
    namespaceMember m (printNamespaceMember m) := by
  match m, h with
  | .const m, h => exact pr_const h
  | .operation m, ⟨h1, h2, h3, h4⟩ => exact Pr.seq (pr_attributes _ h1) (pr_operation h2 h3 h4)
  | .attribute m, ⟨h1, h2, h3⟩ => exact Pr.seq (pr_attributes _ h1) (pr_attribute (r := true) h2 h3)

theorem pr_dictionaryMember {m : DictionaryMember} (h : WfDictionaryMember m) :
    dictionaryMember m (printDictionaryMember m) := by
  obtain ⟨h1, h2, h3, h4⟩ := h
  simp only [dictionaryMember, printDictionaryMember, List.append_assoc, List.cons_append, List.nil_append, printName]
  rw [List.append_cons (printType m.type_)]
  have hc := clear_type m.type_
  refine Pr.seq (pr_attributes _ h1) (pr_optWord (Pr.seq (Pr.named (pr_type _ h2) h3)
    (Pr.seq (pr_default h4) Pr.tok)) ?_ (by decide))
  rw [List.append_assoc]
  exact Clear.append (fun w hw hm => hc.2 w hw (List.mem_cons_of_mem _ hm)) hc.1 _

theorem pr_inheritance {i : Option Str} (h : WfOptName i) : inheritance i (printInheritance i) := by
  cases i with
  | none => rfl
  | some i => exact Pr.cons (Pr.name h)

theorem pr_members {α : Type} {L : α → Lang} {p : α → List Str} {ms : List α} (h : ∀ m ∈ ms, L m (p m)) :
    concat (ms.map L) (ms.flatMap p) := by
  rw [List.flatMap_def]
  exact Pr.concat (Pr.forall₂ h)

theorem pr_body {α : Type} {L : α → Lang} {p : α → List Str} {ms : List α} (h : ∀ m ∈ ms, L m (p m)) :
    body L ms (c!"{" :: (ms.flatMap p ++ [c!"}", c!";"])) := by
  simp only [body, braces, seq_assoc]
  exact Pr.cons (Pr.seq (pr_members h) (Pr.cons Pr.tok))

theorem pr_definition {d : Definition} (h : WfDefinition d) : definition d (printDefinition d) := by
  match d, h with
  | .callback as i r args, ⟨h1, h2, h3, h4⟩ =>
    simp only [definition, printDefinition, List.append_assoc, List.cons_append, List.nil_append, printName]
    exact Pr.seq (pr_attributes _ h1) (Pr.cons (Pr.nameCons h2 (Pr.cons (Pr.seq (pr_returnType _ h3)
      (Pr.seq (pr_argumentList h4) Pr.tok)))))
  | .callbackInterface as i inh ms, ⟨⟨h1, h2, h3⟩, h4⟩ =>
    simp only [definition, printDefinition, printBody, List.append_assoc, List.cons_append, List.nil_append, printName]
    exact Pr.seq (pr_attributes _ h1) (Pr.cons (Pr.cons (Pr.nameCons h2 (Pr.seq (pr_inheritance h4)
      (pr_body fun m hm => pr_interfaceMember (h3 m hm))))))
  | .interface as i inh ms, ⟨⟨h1, h2, h3⟩, h4⟩ =>
    simp only [definition, printDefinition, printBody, List.append_assoc, List.cons_append, List.nil_append, printName]
    exact Pr.seq (pr_attributes _ h1) (Pr.cons (Pr.nameCons h2 (Pr.seq (pr_inheritance h4)
      (pr_body fun m hm => pr_interfaceMember (h3 m hm)))))
  | .interfaceMixin as i ms, ⟨h1, h2, h3⟩ =>
    simp only [definition, printDefinition, printBody, printInheritance, List.append_assoc, List.cons_append, List.nil_append, printName]
    exact Pr.seq (pr_attributes _ h1) (Pr.cons (Pr.cons (Pr.nameCons h2
      (pr_body fun m hm => pr_mixinMember (h3 m hm)))))
  | .namespace as i ms, ⟨h1, h2, h3⟩ =>
    simp only [definition, printDefinition, printBody, printInheritance, List.append_assoc, List.cons_append, List.nil_append, printName]
    exact Pr.seq (pr_attributes _ h1) (Pr.cons (Pr.nameCons h2
      (pr_body fun m hm => pr_namespaceMember (h3 m hm))))
  | .dictionary as i inh ms, ⟨⟨h1, h2, h3⟩, h4⟩ =>
    simp only [definition, printDefinition, printBody, List.append_assoc, List.cons_append, List.nil_append, printName]
    exact Pr.seq (pr_attributes _ h1) (Pr.cons (Pr.nameCons h2 (Pr.seq (pr_inheritance h4)
      (pr_body fun m hm => pr_dictionaryMember (h3 m hm)))))
  | .partialInterface as i ms, ⟨h1, h2, h3⟩ =>
    simp only [definition, printDefinition, printBody, printInheritance, List.append_assoc, List.cons_append, List.nil_append, printName]
    exact Pr.seq (pr_attributes _ h1) (Pr.cons (Pr.cons (Pr.nameCons h2
      (pr_body fun m hm => pr_interfaceMember (h3 m hm)))))
  | .partialInterfaceMixin as i ms, ⟨h1, h2, h3⟩ =>
    simp only [definition, printDefinition, printBody, printInheritance, List.append_assoc, List.cons_append, List.nil_append, printName]
    exact Pr.seq (pr_attributes _ h1) (Pr.cons (Pr.cons (Pr.cons (Pr.nameCons h2
      (pr_body fun m hm => pr_mixinMember (h3 m hm))))))
  | .partialDictionary as i ms, ⟨h1, h2, h3⟩ =>
    simp only [definition, printDefinition, printBody, printInheritance, List.append_assoc, List.cons_append, List.nil_append, printName]
    exact Pr.seq (pr_attributes _ h1) (Pr.cons (Pr.cons (Pr.nameCons h2
      (pr_body fun m hm => pr_dictionaryMember (h3 m hm)))))
  | .partialNamespace as i ms, ⟨h1, h2, h3⟩ =>
    simp only [definition, printDefinition, printBody, printInheritance, List.append_assoc, List.cons_append, List.nil_append, printName]
    exact Pr.seq (pr_attributes _ h1) (Pr.cons (Pr.cons (Pr.nameCons h2
      (pr_body fun m hm => pr_namespaceMember (h3 m hm)))))
  | .enum as i vs, ⟨⟨h1, h2, h3⟩, h4⟩ =>
    simp only [definition, printDefinition, braces, seq_assoc, List.append_assoc, List.cons_append, List.nil_append, printName]
    refine Pr.seq (pr_attributes _ h1) (Pr.cons (Pr.nameCons h2 (Pr.cons (Pr.seq ?_ (Pr.cons Pr.tok)))))
    exact ⟨h4, false, Pr.last (Pr.sepBy (Pr.forall₂ fun v hv => Pr.string (h3 v hv))) rfl⟩
  | .typedef as t i, ⟨h1, h2, h3⟩ =>
    simp only [definition, printDefinition, List.append_assoc, List.cons_append, List.nil_append, printName]
    rw [List.append_cons (printAttributedType t)]
    exact Pr.seq (pr_attributes _ h1) (Pr.cons (Pr.seq (pr_namedAttr h2 h3) Pr.tok))
  | .includesStatement as l r, ⟨h1, h2, h3⟩ =>
    simp only [definition, printDefinition, List.append_assoc, List.cons_append, List.nil_append, printName]
    rw [← List.singleton_append (x := '_' :: l)]
    exact Pr.seq (pr_attributes _ h1) (Pr.seq ⟨Pr.name h2, by simp⟩ (Pr.cons (Pr.nameCons h3 Pr.tok)))
  | .implements as l r, ⟨h1, h2, h3⟩ =>
    simp only [definition, printDefinition, List.append_assoc, List.cons_append, List.nil_append, printName]
    rw [← List.singleton_append (x := '_' :: l)]
    exact Pr.seq (pr_attributes _ h1) (Pr.seq ⟨Pr.name h2, by simp⟩ (Pr.cons (Pr.nameCons h3 Pr.tok)))

theorem pr_definitions {ds : List Definition} (h : Wf ds) : definitions ds (ds.flatMap printDefinition) :=
  pr_members fun d hd => pr_definition (h d hd)

/-! ## What is spelled is well-formed -/

/-- Every spelling in `A` implies `W`. -/
def Implies (A : Lang) (W : Prop) : Prop := ∀ ls, A ls → W

namespace Implies

variable {A B : Lang} {V W : Prop}

theorem seq (ha : Implies A V) (hb : Implies B W) : Implies (A ⨾ B) (V ∧ W) := by
  rintro _ ⟨a, b, rfl, h, h'⟩
  exact ⟨ha a h, hb b h'⟩

theorem left (ha : Implies A V) : Implies (A ⨾ B) V := by
  rintro _ ⟨a, b, rfl, h, h'⟩
  exact ha a h

theorem right (hb : Implies B W) : Implies (A ⨾ B) W := by
  rintro _ ⟨a, b, rfl, h, h'⟩
  exact hb b h'

theorem mid {w w' : Str} (ha : Implies A V) : Implies (tok w ⨾ A ⨾ tok w') V := right (left ha)

theorem avoiding {ps : List (List Str)} (ha : Implies A V) : Implies (avoiding ps A) V := fun ls h => ha ls h.1

theorem name (i : Str) : Implies (Spec.name i) (WfName i) := fun _ h => h.1

theorem typeName (l : List Str) (i : Str) : Implies (Spec.typeName l i) (WfName i) := fun _ h => h.1

theorem string (v : Str) : Implies (Spec.string v) (WfString v) := fun _ h => h.1

theorem named {i : Str} (ha : Implies A V) : Implies (named A i) (V ∧ WfName i) := by
  rintro _ ⟨a, b, rfl, h, h', _⟩
  exact ⟨ha a h, h'.1⟩

theorem sepBy {sep : Lang} {α : Type} {L : α → Lang} {P : α → Prop} : ∀ {l : List α},
    (∀ a ∈ l, Implies (L a) (P a)) → Implies (sepBy sep (l.map L)) (∀ a ∈ l, P a)
  | [], _ => fun _ _ => by simp
  | [a], h => fun ls hl => by simpa using h a (by simp) ls hl
  | a :: b :: l, h => by
    rintro _ ⟨x, _, rfl, hx, _, y, rfl, _, hy⟩
    have := sepBy (l := b :: l) (fun c hc => h c (List.mem_cons_of_mem _ hc)) y hy
    intro c hc
    rcases List.mem_cons.1 hc with rfl | hc
    · exact h _ (by simp) _ hx
    · exact this c hc

theorem concat {α : Type} {L : α → Lang} {P : α → Prop} : ∀ {l : List α},
    (∀ a ∈ l, Implies (L a) (P a)) → Implies (concat (l.map L)) (∀ a ∈ l, P a)
  | [], _ => fun _ _ => by simp
  | a :: l, h => by
    rintro _ ⟨x, y, rfl, hx, hy⟩
    have := concat (l := l) (fun c hc => h c (List.mem_cons_of_mem _ hc)) y hy
    intro c hc
    rcases List.mem_cons.1 hc with rfl | hc
    · exact h _ (by simp) _ hx
    · exact this c hc

end Implies

theorem wfUnionMembers_iff (ms : List UnionMember) : WfUnionMembers ms ↔ ∀ m ∈ ms, WfUnionMember m := by
  induction ms with
  | nil => simp only [WfUnionMembers]; simp
  | cons m ms ih => simp only [WfUnionMembers, ih]; simp

theorem wfArguments_iff (ms : List Argument) : WfArguments ms ↔ ∀ m ∈ ms, WfArgument m := by
  induction ms with
  | nil => simp only [WfArguments]; simp
  | cons m ms ih => simp only [WfArguments, ih]; simp

theorem wfExtAttrs_iff (ms : List ExtAttr) : WfExtAttrs ms ↔ ∀ m ∈ ms, WfExtAttr m := by
  induction ms with
  | nil => simp only [WfExtAttrs]; simp
  | cons m ms ih => simp only [WfExtAttrs, ih]; simp

theorem wf_integer (i : IntegerLit) : Implies (integerLit i) (WfInteger i) := by
  cases i <;> exact fun _ h => h.1

theorem wf_float (f : FloatLit) : Implies (floatLit f) (WfFloat f) := by
  cases f <;> first | exact fun _ h => h.1 | exact fun _ _ => trivial

theorem wf_defaultValue (d : DefaultValue) : Implies (defaultValue d) (WfDefaultValue d) := by
  cases d with
  | float f => exact wf_float f
  | integer i => exact wf_integer i
  | string v => exact .string v
  | _ => exact fun _ _ => trivial

theorem wf_constValue (d : ConstValue) : Implies (constValue d) (WfConstValue d) := by
  cases d with
  | float f => exact wf_float f
  | integer i => exact wf_integer i
  | _ => exact fun _ _ => trivial

theorem wf_default (d : Option DefaultValue) : Implies (Spec.default d) (WfDefault d) := by
  cases d with
  | none => exact fun _ _ => trivial
  | some d => exact .right (wf_defaultValue d)

theorem wf_idOrString (x : IdentifierOrString) : Implies (identifierOrString x) (WfIdentifierOrString x) := by
  cases x with
  | identifier i => exact .name i
  | string v => exact .string v

mutual

theorem wf_type : ∀ t, Implies (type t) (WfType t)
  | .single t => by simp only [type, WfType]; exact wf_singleType t
  | .union ms q => by
    simp only [type, WfType]
    exact .left (.mid (wf_unionMembers ms))

theorem wf_singleType : ∀ t, Implies (singleType t) (WfSingleType t)
  | .any => by simp only [WfSingleType]; exact fun _ _ => trivial
  | .nonAny t => by simp only [singleType, WfSingleType]; exact .avoiding (wf_nonAnyType t)

theorem wf_nonAnyType : ∀ t, Implies (nonAnyType t) (WfNonAnyType t)
  | .promise r => by simp only [nonAnyType, WfNonAnyType]; exact .right (.mid (wf_returnType r))
  | .integer t q => by simp only [WfNonAnyType]; exact fun _ _ => trivial
  | .floatingPoint t q => by simp only [WfNonAnyType]; exact fun _ _ => trivial
  | .builtin t q => by simp only [WfNonAnyType]; exact fun _ _ => trivial
  | .sequence t q => by simp only [nonAnyType, WfNonAnyType]; exact .left (.right (.mid (wf_type t)))
  | .frozenArray t q => by simp only [nonAnyType, WfNonAnyType]; exact .left (.right (.mid (wf_type t)))
  | .record k v q => by
    simp only [nonAnyType, WfNonAnyType]
    exact .left (.right (.mid (.seq (wf_recordKeyType k) (.right (wf_type v)))))
  | .identifier i q => by simp only [nonAnyType, WfNonAnyType]; exact .left (.typeName _ i)

theorem wf_recordKeyType : ∀ t, Implies (recordKeyType t) (WfRecordKeyType t)
  | .byte => by simp only [WfRecordKeyType]; exact fun _ _ => trivial
  | .dom => by simp only [WfRecordKeyType]; exact fun _ _ => trivial
  | .usv => by simp only [WfRecordKeyType]; exact fun _ _ => trivial
  | .nonAny t => by
    simp only [recordKeyType, WfRecordKeyType]
    rintro ls ⟨h, h'⟩
    refine ⟨wf_nonAnyType t ls h, fun hs => ?_⟩
    match t, h, hs with
    | .builtin .byteString q, h, _ =>
      simp only [nonAnyType] at h
      obtain ⟨a, b, rfl, ha, hb⟩ := h
      exact h' [c!"ByteString"] (by simp) ⟨b, by rw [ha]; rfl⟩
    | .builtin .domString q, h, _ =>
      simp only [nonAnyType] at h
      obtain ⟨a, b, rfl, ha, hb⟩ := h
      exact h' [c!"DOMString"] (by simp) ⟨b, by rw [ha]; rfl⟩
    | .builtin .usvString q, h, _ =>
      simp only [nonAnyType] at h
      obtain ⟨a, b, rfl, ha, hb⟩ := h
      exact h' [c!"USVString"] (by simp) ⟨b, by rw [ha]; rfl⟩

theorem wf_unionMember : ∀ t, Implies (unionMember t) (WfUnionMember t)
  | .single as t => by
    simp only [unionMember, WfUnionMember]
    exact .seq (wf_attributes as) (wf_nonAnyType t)
  | .union ms q => by
    simp only [unionMember, WfUnionMember]
    exact .left (.mid (wf_unionMembers ms))

theorem wf_unionMembers : ∀ ms, Implies (sepBy (tok c!"or") (unionMembers ms)) (WfUnionMembers ms)
  | [] => by simp only [WfUnionMembers]; exact fun _ _ => trivial
  | [m] => by
    simp only [unionMembers, sepBy, WfUnionMembers, and_true]
    exact wf_unionMember m
  | m :: m' :: ms => by
    simp only [unionMembers, sepBy]
    rw [WfUnionMembers]
    have := wf_unionMembers (m' :: ms)
    simp only [unionMembers] at this
    exact .seq (wf_unionMember m) (.right this)

theorem wf_returnType : ∀ t, Implies (returnType t) (WfReturnType t)
  | .undefined => by simp only [WfReturnType]; exact fun _ _ => trivial
  | .type t => by simp only [returnType, WfReturnType]; exact .avoiding (wf_type t)

theorem wf_extAttr : ∀ t, Implies (extAttr t) (WfExtAttr t)
  | .argList i args => by
    simp only [extAttr, WfExtAttr]
    exact .seq (.name i) (.mid (wf_arguments args))
  | .namedArgList l r args => by
    simp only [extAttr, WfExtAttr]
    exact .seq (.name l) (.right (.seq (.name r) (.mid (wf_arguments args))))
  | .identList i is => by
    simp only [extAttr, WfExtAttr]
    exact .seq (.name i) (.right (.mid (.sepBy fun j _ => .name j)))
  | .ident l r => by
    simp only [extAttr, WfExtAttr]
    exact .seq (.name l) (.right (wf_idOrString r))
  | .wildcard l => by
    simp only [extAttr, WfExtAttr]
    exact .left (.name l)
  | .noArgs i => by
    simp only [extAttr, WfExtAttr]
    exact .name i

theorem wf_extAttrs : ∀ as, Implies (sepBy comma (extAttrs as)) (WfExtAttrs as)
  | [] => by simp only [WfExtAttrs]; exact fun _ _ => trivial
  | [m] => by
    simp only [extAttrs, sepBy, WfExtAttrs, and_true]
    exact wf_extAttr m
  | m :: m' :: ms => by
    simp only [extAttrs, sepBy]
    rw [WfExtAttrs]
    have := wf_extAttrs (m' :: ms)
    simp only [extAttrs] at this
    exact .seq (wf_extAttr m) (.right this)

theorem wf_attributes : ∀ as, Implies (attributes as) (WfAttributes as)
  | none => by simp only [WfAttributes]; exact fun _ _ => trivial
  | some as => by simp only [attributes, WfAttributes]; exact .mid (wf_extAttrs as)

theorem wf_argument : ∀ a, Implies (argument a) (WfArgument a)
  | .single as true (.mk as' t) i d => by
    simp only [argument, WfArgument, WfAttributedType, namedAttributed, if_true]
    intro ls h
    obtain ⟨h1, ⟨h2, h3, h4⟩, h5⟩ :=
      Implies.seq (wf_attributes as) (.right (.seq (.seq (wf_attributes as') (.named (wf_type t))) (wf_default d))) ls h
    exact ⟨h1, ⟨h2, h3⟩, h4, h5, fun h => nomatch h⟩
  | .single as false (.mk as' t) i d => by
    simp only [argument, WfArgument, WfAttributedType, namedAttributed, Bool.false_eq_true, if_false]
    rintro ls ⟨a, b, rfl, h1, hd, h, h'⟩
    obtain ⟨h2, h3, h4⟩ := Implies.seq (wf_attributes as') (.named (wf_type t)) b h
    refine ⟨wf_attributes as a h1, ⟨h2, h3⟩, h4, hd ▸ trivial, fun _ => ⟨hd, ?_⟩⟩
    rintro rfl
    cases as' with
    | none => rfl
    | some l =>
      refine absurd ?_ (h' [c!"["] (by simp))
      simp only [attributes, brackets] at h
      obtain ⟨_, c, rfl, ⟨_, x, rfl, hx, _⟩, _⟩ := h
      rw [hx]
      exact ⟨x ++ c, by simp⟩
  | .variadic as t i => by
    simp only [argument, WfArgument]
    exact .seq (wf_attributes as) (.seq (wf_type t) (.right (.name i)))

theorem wf_arguments : ∀ as, Implies (sepBy comma (arguments as)) (WfArguments as)
  | [] => by simp only [WfArguments]; exact fun _ _ => trivial
  | [m] => by
    simp only [arguments, sepBy, WfArguments, and_true]
    exact wf_argument m
  | m :: m' :: ms => by
    simp only [arguments, sepBy]
    rw [WfArguments]
    have := wf_arguments (m' :: ms)
    simp only [arguments] at this
    exact .seq (wf_argument m) (.right this)

end

theorem wf_attributedType (t : AttributedType) : Implies (attributedType t) (WfAttributedType t) := by
  cases t with
  | mk as t =>
    simp only [attributedType, WfAttributedType]
    exact .seq (wf_attributes as) (wf_type t)

theorem wf_namedAttributed (t : AttributedType) (i : Str) :
    Implies (namedAttributed t i) (WfAttributedType t ∧ WfName i) := by
  cases t with
  | mk as t =>
    simp only [namedAttributed, WfAttributedType, and_assoc]
    exact .seq (wf_attributes as) (.named (wf_type t))

theorem wf_argumentList (as : List Argument) : Implies (argumentList as) (WfArguments as) :=
  .mid (wf_arguments as)

theorem wf_optArgumentList (as : Option (List Argument)) : Implies (optArgumentList as) (WfOptArguments as) := by
  cases as with
  | none => exact fun _ _ => trivial
  | some as => exact wf_argumentList as

theorem wf_constType (t : ConstType) : Implies (constType t) (WfConstType t) := by
  cases t with
  | identifier i q => exact .left (.typeName _ i)
  | _ => exact fun _ _ => trivial

theorem wf_returnNamed (r : ReturnType) (i : Option Str) :
    Implies (returnNamed r i) (WfReturnType r ∧ WfOptName i) := by
  cases i with
  | none => exact fun ls h => ⟨wf_returnType r ls h, trivial⟩
  | some i => exact .named (wf_returnType r)

theorem wf_const (m : ConstMember) : Implies (constMember m) (WfConst m) := by
  intro ls h
  obtain ⟨h1, ⟨h2, h3⟩, h4⟩ := Implies.seq (wf_attributes _) (.right (.seq (.named (wf_constType _))
    (.right (.left (wf_constValue _))))) ls h
  exact ⟨h1, h2, h3, h4⟩

theorem wf_operation (r : ReturnType) (i : Option Str) (as : List Argument) :
    Implies (returnNamed r i ⨾ argumentList as ⨾ tok c!";") (WfReturnType r ∧ WfOptName i ∧ WfArguments as) := by
  intro ls h
  obtain ⟨⟨h1, h2⟩, h3⟩ := Implies.seq (wf_returnNamed r i) (.left (wf_argumentList as)) ls h
  exact ⟨h1, h2, h3⟩

theorem wf_modified {m : Option StringifierOrStatic} {A : Lang} {W : Prop} (h : Implies A W) :
    Implies (modified m A) W := by
  rcases m with _ | (_ | _)
  · exact .avoiding h
  · exact .right h
  · exact .right h

theorem wf_specialised {m : Option Special} {A : Lang} {W : Prop} (h : Implies A W) :
    Implies (specialised m A) W := by
  rcases m with _ | (_ | _ | _ | _)
  · exact .avoiding h
  · exact .right h
  · exact .right h
  · exact .right h
  · exact .right h

theorem wf_optWord {b : Bool} {w : Str} {A : Lang} {W : Prop} (h : Implies A W) :
    Implies (optWord b w A) W := by
  cases b
  · exact .avoiding h
  · exact .right h

theorem wf_typePair (p : AttributedType × AttributedType) : Implies (typePair p) (WfTypePair p) :=
  .seq (wf_attributedType _) (.right (wf_attributedType _))

theorem wf_interfaceMember (m : InterfaceMember) : Implies (interfaceMember m) (WfInterfaceMember m) := by
  match m with
  | .const m => exact wf_const m
  | .attribute m =>
    exact .seq (wf_attributes _) (.right (.right (.right (.left (wf_namedAttributed _ _)))))
  | .constructor m => exact .seq (wf_attributes _) (.right (.left (wf_argumentList _)))
  | .operation m =>
    exact .seq (wf_attributes _) (.avoiding (wf_modified (wf_specialised (wf_operation _ _ _))))
  | .iterable (.single as t) => exact .seq (wf_attributes _) (.right (.left (.mid (wf_attributedType _))))
  | .iterable (.double as t) => exact .seq (wf_attributes _) (.right (.left (.mid (wf_typePair _))))
  | .asyncIterable (.single as t args) =>
    exact .seq (wf_attributes _) (.right (.right (.seq (.mid (wf_attributedType _)) (.left (wf_optArgumentList _)))))
  | .asyncIterable (.double as t args) =>
    exact .seq (wf_attributes _) (.right (.right (.seq (.mid (wf_typePair _)) (.left (wf_optArgumentList _)))))
  | .maplike m => exact .seq (wf_attributes _) (.right (.right (.left (.mid (wf_typePair _)))))
  | .setlike m => exact .seq (wf_attributes _) (.right (.right (.left (.mid (wf_attributedType _)))))
  | .stringifier m => exact .left (wf_attributes _)

theorem wf_mixinMember (m : MixinMember) : Implies (mixinMember m) (WfMixinMember m) := by
  match m with
  | .const m => exact wf_const m
  | .operation m => exact .seq (wf_attributes _) (wf_optWord (wf_operation _ _ _))
  | .attribute m =>
    exact .seq (wf_attributes _) (.right (.right (.right (.left (wf_namedAttributed _ _)))))
  | .stringifier m => exact .left (wf_attributes _)

theorem wf_namespaceMember (m : NamespaceMember) : Implies (namespaceMember m) (WfNamespaceMember m) := by
  match m with
  | .const m => exact wf_const m
  | .operation m => exact .seq (wf_attributes _) (wf_operation _ _ _)
  | .attribute m => exact .seq (wf_attributes _) (.right (.right (.left (wf_namedAttributed _ _))))

theorem wf_dictionaryMember (m : DictionaryMember) : Implies (dictionaryMember m) (WfDictionaryMember m) := by
  intro ls h
  obtain ⟨h1, ⟨h2, h3⟩, h4⟩ := Implies.seq (wf_attributes _)
    (wf_optWord (.seq (.named (wf_type _)) (.left (wf_default _)))) ls h
  exact ⟨h1, h2, h3, h4⟩

theorem wf_inheritance (i : Option Str) : Implies (inheritance i) (WfOptName i) := by
  cases i with
  | none => exact fun _ _ => trivial
  | some i => exact .right (.name i)

theorem wf_body {α : Type} {L : α → Lang} {P : α → Prop} {ms : List α} (h : ∀ m, Implies (L m) (P m)) :
    Implies (body L ms) (∀ m ∈ ms, P m) :=
  .left (.mid (.concat fun m _ => h m))

theorem wf_definition (d : Definition) : Implies (definition d) (WfDefinition d) := by
  have hi : ∀ (i : Str) (inh : Option Str) ms, Implies (name i ⨾ inheritance inh ⨾ body interfaceMember ms)
      (WfName i ∧ WfOptName inh ∧ ∀ m ∈ ms, WfInterfaceMember m) := fun i inh ms =>
    .seq (.name i) (.seq (wf_inheritance inh) (wf_body wf_interfaceMember))
  match d with
  | .callback as i r args =>
    exact .seq (wf_attributes _) (.right (.seq (.name i) (.right (.seq (wf_returnType r) (.left (wf_argumentList _))))))
  | .callbackInterface as i inh ms =>
    intro ls h
    obtain ⟨h1, h2, h3, h4⟩ := Implies.seq (wf_attributes _) (.right (.right (hi i inh ms))) ls h
    exact ⟨⟨h1, h2, h4⟩, h3⟩
  | .interface as i inh ms =>
    intro ls h
    obtain ⟨h1, h2, h3, h4⟩ := Implies.seq (wf_attributes _) (.right (hi i inh ms)) ls h
    exact ⟨⟨h1, h2, h4⟩, h3⟩
  | .interfaceMixin as i ms =>
    exact .seq (wf_attributes _) (.right (.right (.seq (.name i) (wf_body wf_mixinMember))))
  | .namespace as i ms => exact .seq (wf_attributes _) (.right (.seq (.name i) (wf_body wf_namespaceMember)))
  | .dictionary as i inh ms =>
    intro ls h
    obtain ⟨h1, h2, h3, h4⟩ := Implies.seq (wf_attributes _) (.right (.seq (.name i) (.seq (wf_inheritance inh)
      (wf_body wf_dictionaryMember)))) ls h
    exact ⟨⟨h1, h2, h4⟩, h3⟩
  | .partialInterface as i ms =>
    exact .seq (wf_attributes _) (.right (.right (.seq (.name i) (wf_body wf_interfaceMember))))
  | .partialInterfaceMixin as i ms =>
    exact .seq (wf_attributes _) (.right (.right (.right (.seq (.name i) (wf_body wf_mixinMember)))))
  | .partialDictionary as i ms =>
    exact .seq (wf_attributes _) (.right (.right (.seq (.name i) (wf_body wf_dictionaryMember))))
  | .partialNamespace as i ms =>
    exact .seq (wf_attributes _) (.right (.right (.seq (.name i) (wf_body wf_namespaceMember))))
  | .enum as i vs =>
    have hv : Implies (enumValues vs) ((∀ v ∈ vs, WfString v) ∧ vs ≠ []) := by
      rintro ls ⟨hv, c, h⟩
      exact ⟨Implies.left (.sepBy fun v _ => .string v) ls h, hv⟩
    intro ls h
    obtain ⟨h1, h2, h3, h4⟩ := Implies.seq (wf_attributes _) (.right (.seq (.name i) (.left (.mid hv)))) ls h
    exact ⟨⟨h1, h2, h3⟩, h4⟩
  | .typedef as t i => exact .seq (wf_attributes _) (.right (.left (wf_namedAttributed _ _)))
  | .includesStatement as l r =>
    exact .seq (wf_attributes _) (.seq (.avoiding (.name l)) (.right (.left (.name r))))
  | .implements as l r =>
    exact .seq (wf_attributes _) (.seq (.avoiding (.name l)) (.right (.left (.name r))))

theorem wf_definitions (ds : List Definition) : Implies (definitions ds) (Wf ds) :=
  .concat fun d _ => wf_definition d

/-- The definitions of documents are the well-formed ones. -/
theorem definitions_iff_wf (ds : List Definition) : (∃ ls, definitions ds ls) ↔ Wf ds :=
  ⟨fun ⟨ls, h⟩ => wf_definitions ds ls h, fun h => ⟨_, pr_definitions h⟩⟩

theorem document_print {ds : List Definition} (h : Wf ds) : Document ds (print ds) := by
  by_cases hd : ds = []
  · subst hd
    exact .inl ⟨rfl, rfl⟩
  · exact .inr ⟨hd, [], _, _, rfl, Trivia.nil, pr_definitions h, text_spaced _⟩

theorem document_wf {ds : List Definition} {s : Str} (h : Document ds s) : Wf ds := by
  rcases h with ⟨rfl, _⟩ | ⟨_, _, ls, _, _, _, h, _⟩
  · exact fun _ h => nomatch h
  · exact wf_definitions ds ls h

end Verif
