import Verif.Spec.Normal
import Verif.Proof.Kind

/-!
# Properties of all spellings

A scheme for proofs by induction over the AST: `X n A` says something about the spellings in `A`, which contain `n`
semicolons.
-/

namespace Verif
open Spec

/-- neither a semicolon nor a bracket -/
def isLow (w : Str) : Bool := isPlain w && w != c!";"

structure Pass (X : Nat → Lang → Prop) : Prop where
  mono {A B : Lang} {n : Nat} (h : ∀ ls, A ls → B ls) (hb : X n B) : X n A
  eps : X 0 Spec.eps
  tok {w : Str} (h : isLow w = true) : X 0 (Spec.tok w)
  semi : X 1 (Spec.tok c!";")
  seq {A B : Lang} {m n : Nat} (ha : X m A) (hb : X n B) : X (m + n) (A ⨾ B)
  mid {A : Lang} {n : Nat} {o c : Str} (h : (o, c) ∈ pairs) (ha : X n A) : X n (Spec.tok o ⨾ A ⨾ Spec.tok c)
  name (i : Str) : X 0 (Spec.name i)
  string (v : Str) : X 0 (Spec.string v)
  number {re : Regex} (hre : ∀ v, re.Matches v → Numeral v) (v : Str) : X 0 (literal re v)

namespace Pass

variable {X : Nat → Lang → Prop} (hX : Pass X) {A B : Lang} {n : Nat} {i : Str}
include hX

theorem seq0 (ha : X 0 A) (hb : X n B) : X n (A ⨾ B) := by
  have := hX.seq ha hb
  rwa [Nat.zero_add] at this

theorem cons {w : Str} (h : isLow w = true) (hb : X n B) : X n (Spec.tok w ⨾ B) := hX.seq0 (hX.tok h) hb

theorem opt (q : Bool) {w : Str} (h : isLow w = true) : X 0 (optTok q w) := by
  cases q
  · exact hX.eps
  · exact hX.tok h

theorem avoiding {ps : List (List Str)} (ha : X n A) : X n (avoiding ps A) := hX.mono (fun _ h => h.1) ha

theorem typeName {l : List Str} (i : Str) : X 0 (typeName l i) := by
  refine hX.mono (fun ls h => ?_) (hX.name i)
  obtain ⟨h1, h2⟩ := h
  rcases h2 with ⟨h, -⟩ | h
  · exact ⟨h1, .inl h⟩
  · exact ⟨h1, .inr h⟩

theorem named (ha : X 0 A) : X 0 (named A i) := by
  refine hX.mono (fun ls h => ?_) (hX.seq0 ha (hX.name i))
  obtain ⟨a, b, rfl, h1, h2, h3⟩ := h
  exact ⟨a, b, rfl, h1, h2⟩

theorem sepBy {sep : Lang} (hs : X 0 sep) {α : Type} {L : α → Lang} : ∀ {l : List α},
    (∀ a ∈ l, X 0 (L a)) → X 0 (sepBy sep (l.map L))
  | [], _ => hX.eps
  | [a], h => h a (by simp)
  | a :: b :: l, h => hX.seq0 (h a (by simp)) (hX.seq0 hs (sepBy hs (l := b :: l) fun c hc => h c (List.mem_cons_of_mem _ hc)))

theorem concat {α : Type} {L : α → Lang} (f : α → Nat) : ∀ (l : List α),
    (∀ a ∈ l, X (f a) (L a)) → X (l.map f).sum (concat (l.map L))
  | [], _ => hX.eps
  | a :: l, h => hX.seq (h a (by simp)) (concat f l fun c hc => h c (List.mem_cons_of_mem _ hc))

theorem parens (ha : X n A) : X n (parens A) := hX.mid (o := c!"(") (c := c!")") (by decide) ha
theorem brackets (ha : X n A) : X n (brackets A) := hX.mid (o := c!"[") (c := c!"]") (by decide) ha
theorem braces (ha : X n A) : X n (braces A) := hX.mid (o := c!"{") (c := c!"}") (by decide) ha
theorem angles (ha : X n A) : X n (angles A) := hX.mid (o := c!"<") (c := c!">") (by decide) ha

end Pass

theorem low_builtin (b : Builtin) : isLow (builtinWord b) = true := by
  cases b <;> decide

section

variable {X : Nat → Lang → Prop} (hX : Pass X)
include hX

/-! ## Literals -/

theorem ps_integer (i : IntegerLit) : X 0 (integerLit i) := by
  cases i
  · exact hX.number (fun _ h => .inl h) _
  · exact hX.number (fun _ h => .inr (.inl h)) _
  · exact hX.number (fun _ h => .inr (.inr (.inl h))) _

theorem ps_float (f : FloatLit) : X 0 (floatLit f) := by
  cases f
  · exact hX.number (fun _ h => .inr (.inr (.inr h))) _
  all_goals exact hX.tok (by decide)

theorem ps_boolean (b : Bool) : X 0 (booleanLit b) := by
  cases b <;> exact hX.tok (by decide)

theorem ps_defaultValue (d : DefaultValue) : X 0 (defaultValue d) := by
  cases d with
  | float f => exact ps_float hX f
  | integer i => exact ps_integer hX i
  | string v => exact hX.string v
  | boolean b => exact ps_boolean hX b
  | emptyArray =>
    refine hX.mono (B := brackets eps) ?_ (hX.brackets hX.eps)
    rintro _ ⟨_, _, rfl, rfl, rfl⟩
    exact ⟨_, _, rfl, rfl, [], _, rfl, rfl, rfl⟩
  | emptyDictionary =>
    refine hX.mono (B := braces eps) ?_ (hX.braces hX.eps)
    rintro _ ⟨_, _, rfl, rfl, rfl⟩
    exact ⟨_, _, rfl, rfl, [], _, rfl, rfl, rfl⟩
  | null => exact hX.tok (by decide)

theorem ps_constValue (d : ConstValue) : X 0 (constValue d) := by
  cases d with
  | float f => exact ps_float hX f
  | integer i => exact ps_integer hX i
  | boolean b => exact ps_boolean hX b
  | null => exact hX.tok (by decide)

theorem ps_default (d : Option DefaultValue) : X 0 (Spec.default d) := by
  cases d with
  | none => exact hX.eps
  | some d => exact hX.cons (by decide) (ps_defaultValue hX d)

theorem ps_integerType (t : IntegerType) : X 0 (integerType t) := by
  cases t with
  | longLong u => exact hX.seq0 (hX.opt u (by decide)) (hX.cons (by decide) (hX.tok (by decide)))
  | long u => exact hX.seq0 (hX.opt u (by decide)) (hX.tok (by decide))
  | short u => exact hX.seq0 (hX.opt u (by decide)) (hX.tok (by decide))

theorem ps_floatingPointType (t : FloatingPointType) : X 0 (floatingPointType t) := by
  cases t <;> exact hX.seq0 (hX.opt _ (by decide)) (hX.tok (by decide))



/-- `T?` -/
theorem ps_null {A : Lang} (h : X 0 A) (q : Bool) : X 0 (A ⨾ optTok q c!"?") :=
  hX.seq0 h (hX.opt q (by decide))

theorem ps_comma : X 0 comma := hX.tok (by decide)


theorem ps_idOrString (x : IdentifierOrString) :
    X 0 (identifierOrString x) := by
  cases x with
  | identifier i => exact hX.name i
  | string v => exact hX.string v

/-! ## Types -/

mutual

theorem ps_type : ∀ t, X 0 (type t)
  | .single t => by simp only [type]; exact ps_singleType t
  | .union ms q => by
    simp only [type]
    exact ps_null hX (hX.parens (ps_unionMembers ms)) q

theorem ps_singleType : ∀ t, X 0 (singleType t)
  | .any => by simp only [singleType]; exact hX.tok (by decide)
  | .nonAny t => by simp only [singleType]; exact hX.avoiding (ps_nonAnyType t)

theorem ps_nonAnyType : ∀ t, X 0 (nonAnyType t)
  | .promise r => by
    simp only [nonAnyType]; exact hX.cons (by decide) (hX.angles (ps_returnType r))
  | .integer t q => by simp only [nonAnyType]; exact ps_null hX (ps_integerType hX t) q
  | .floatingPoint t q => by simp only [nonAnyType]; exact ps_null hX (ps_floatingPointType hX t) q
  | .builtin t q => by simp only [nonAnyType]; exact ps_null hX (hX.tok (low_builtin t)) q
  | .sequence t q => by
    simp only [nonAnyType]; exact ps_null hX (hX.cons (by decide) (hX.angles (ps_type t))) q
  | .frozenArray t q => by
    simp only [nonAnyType]; exact ps_null hX (hX.cons (by decide) (hX.angles (ps_type t))) q
  | .record k v q => by
    simp only [nonAnyType]
    exact ps_null hX (hX.cons (by decide) (hX.angles (hX.seq0 (ps_recordKeyType k) (hX.seq0 (ps_comma hX) (ps_type v))))) q
  | .identifier i q => by
    simp only [nonAnyType]; exact ps_null hX (hX.typeName i) q

theorem ps_recordKeyType : ∀ t, X 0 (recordKeyType t)
  | .byte => by simp only [recordKeyType]; exact hX.tok (by decide)
  | .dom => by simp only [recordKeyType]; exact hX.tok (by decide)
  | .usv => by simp only [recordKeyType]; exact hX.tok (by decide)
  | .nonAny t => by
    simp only [recordKeyType]; exact hX.avoiding (ps_nonAnyType t)

theorem ps_unionMember : ∀ t, X 0 (unionMember t)
  | .single as t => by
    simp only [unionMember]
    exact hX.seq0 (ps_attributes as) (ps_nonAnyType t)
  | .union ms q => by
    simp only [unionMember]
    exact ps_null hX (hX.parens (ps_unionMembers ms)) q

theorem ps_unionMembers : ∀ ms, X 0 (sepBy (tok c!"or") (unionMembers ms))
  | [] => by simp only [unionMembers]; exact hX.eps
  | [m] => by
    simp only [unionMembers, sepBy]
    exact ps_unionMember m
  | m :: m' :: ms => by
    have := ps_unionMembers (m' :: ms)
    simp only [unionMembers, sepBy] at this ⊢
    exact hX.seq0 (ps_unionMember m) (hX.cons (by decide) this)

theorem ps_returnType : ∀ t, X 0 (returnType t)
  | .undefined => by simp only [returnType]; exact hX.tok (by decide)
  | .type t => by simp only [returnType]; exact hX.avoiding (ps_type t)

theorem ps_extAttr : ∀ t, X 0 (extAttr t)
  | .argList i args => by
    simp only [extAttr]
    exact hX.seq0 (hX.name i) (hX.parens (ps_arguments args))
  | .namedArgList l r args => by
    simp only [extAttr]
    exact hX.seq0 (hX.name l) (hX.cons (by decide) (hX.seq0 (hX.name r) (hX.parens (ps_arguments args))))
  | .identList i is => by
    simp only [extAttr]
    exact hX.seq0 (hX.name i) (hX.cons (by decide) (hX.parens (hX.sepBy (ps_comma hX) fun j _ => hX.name j)))
  | .ident l r => by
    simp only [extAttr]
    exact hX.seq0 (hX.name l) (hX.cons (by decide) (ps_idOrString hX r))
  | .wildcard l => by
    simp only [extAttr]
    exact hX.seq0 (hX.name l) (hX.cons (by decide) (hX.tok (by decide)))
  | .noArgs i => by
    simp only [extAttr]
    exact hX.name i

theorem ps_extAttrs : ∀ as, X 0 (sepBy comma (extAttrs as))
  | [] => by simp only [extAttrs]; exact hX.eps
  | [m] => by
    simp only [extAttrs, sepBy]
    exact ps_extAttr m
  | m :: m' :: ms => by
    have := ps_extAttrs (m' :: ms)
    simp only [extAttrs, sepBy] at this ⊢
    exact hX.seq0 (ps_extAttr m) (hX.seq0 (ps_comma hX) this)

theorem ps_attributes : ∀ as, X 0 (attributes as)
  | none => by simp only [attributes]; exact hX.eps
  | some as => by simp only [attributes]; exact hX.brackets (ps_extAttrs as)

theorem ps_namedAttributed : ∀ t i, X 0 (namedAttributed t i)
  | .mk as t, i => by
    simp only [namedAttributed]
    exact hX.seq0 (ps_attributes as) (hX.named (ps_type t))

theorem ps_argument : ∀ a, X 0 (argument a)
  | .single as true t i d => by
    simp only [argument, if_true]
    exact hX.seq0 (ps_attributes as) (hX.cons (by decide) (hX.seq0 (ps_namedAttributed t i) (ps_default hX d)))
  | .single as false t i d => by
    simp only [argument, Bool.false_eq_true, if_false]
    refine hX.seq0 (ps_attributes as) ?_
    exact hX.mono (fun _ h => h.2) (hX.avoiding (ps_namedAttributed t i))
  | .variadic as t i => by
    simp only [argument]
    exact hX.seq0 (ps_attributes as) (hX.seq0 (ps_type t) (hX.cons (by decide) (hX.name i)))

theorem ps_arguments : ∀ as, X 0 (sepBy comma (arguments as))
  | [] => by simp only [arguments]; exact hX.eps
  | [m] => by
    simp only [arguments, sepBy]
    exact ps_argument m
  | m :: m' :: ms => by
    have := ps_arguments (m' :: ms)
    simp only [arguments, sepBy] at this ⊢
    exact hX.seq0 (ps_argument m) (hX.seq0 (ps_comma hX) this)

end

/-! ## Members -/

theorem ps_attributedType (t : AttributedType) : X 0 (attributedType t) := by
  cases t with
  | mk as t =>
    simp only [attributedType]
    exact hX.seq0 (ps_attributes hX as) (ps_type hX t)

theorem ps_argumentList (as : List Argument) : X 0 (argumentList as) :=
  hX.parens (ps_arguments hX as)

theorem ps_optArgumentList (as : Option (List Argument)) :
    X 0 (optArgumentList as) := by
  cases as with
  | none => exact hX.eps
  | some as => exact ps_argumentList hX as

theorem ps_constType (t : ConstType) : X 0 (constType t) := by
  cases t with
  | identifier i q => exact ps_null hX (hX.typeName i) q
  | integer t q => exact ps_null hX (ps_integerType hX t) q
  | floatingPoint t q => exact ps_null hX (ps_floatingPointType hX t) q
  | _ => exact ps_null hX (hX.tok (by decide)) _

theorem ps_returnNamed (r : ReturnType) (i : Option Str) :
    X 0 (returnNamed r i) := by
  cases i with
  | none => exact ps_returnType hX r
  | some i => exact hX.named (ps_returnType hX r)

theorem ps_const (m : ConstMember) : X 1 (constMember m) :=
  hX.seq0 (ps_attributes hX _) (hX.cons (by decide) (hX.seq0 (hX.named (ps_constType hX _)) (hX.cons (by decide)
    (hX.seq0 (ps_constValue hX _) hX.semi))))

theorem ps_operation (r : ReturnType) (i : Option Str) (as : List Argument) :
    X 1 (returnNamed r i ⨾ argumentList as ⨾ tok c!";") :=
  hX.seq0 (ps_returnNamed hX r i) (hX.seq0 (ps_argumentList hX as) hX.semi)

theorem ps_modifier (m : Option StringifierOrInheritOrStatic) : X 0 (modifier m) := by
  rcases m with _ | (_ | _ | _)
  · exact hX.eps
  all_goals exact hX.tok (by decide)

theorem ps_modified {m : Option StringifierOrStatic} {A : Lang} {n : Nat} (h : X n A) :
    X n (modified m A) := by
  rcases m with _ | (_ | _)
  · exact hX.avoiding h
  all_goals exact hX.cons (by decide) h

theorem ps_specialised {m : Option Special} {A : Lang} {n : Nat} (h : X n A) :
    X n (specialised m A) := by
  rcases m with _ | (_ | _ | _ | _)
  · exact hX.avoiding h
  all_goals exact hX.cons (by decide) h

theorem ps_optWord {b : Bool} {w : Str} (hw : isLow w = true) {A : Lang} {n : Nat} (h : X n A) :
    X n (optWord b w A) := by
  cases b
  · exact hX.avoiding h
  · exact hX.cons hw h

theorem ps_typePair (p : AttributedType × AttributedType) : X 0 (typePair p) :=
  hX.seq0 (ps_attributedType hX _) (hX.seq0 (ps_comma hX) (ps_attributedType hX _))

theorem ps_attribute {A : Lang} (h : X 0 A) (r : Bool) :
    X 1 (optTok r c!"readonly" ⨾ tok c!"attribute" ⨾ A ⨾ tok c!";") :=
  hX.seq0 (hX.opt r (by decide)) (hX.cons (by decide) (hX.seq0 h hX.semi))

theorem ps_stringifier (m : StringifierMember) : X 1 (stringifierMember m) :=
  hX.seq0 (ps_attributes hX _) (hX.cons (by decide) hX.semi)

theorem ps_interfaceMember (m : InterfaceMember) :
    X 1 (interfaceMember m) := by
  match m with
  | .const m => exact ps_const hX m
  | .attribute m =>
    exact hX.seq0 (ps_attributes hX _) (hX.seq0 (ps_modifier hX _) (ps_attribute hX (ps_namedAttributed hX _ _) _))
  | .constructor m =>
    exact hX.seq0 (ps_attributes hX _) (hX.cons (by decide) (hX.seq0 (ps_argumentList hX _) hX.semi))
  | .operation m =>
    exact hX.seq0 (ps_attributes hX _) (hX.avoiding
      (ps_modified hX (ps_specialised hX (ps_operation hX _ _ _))))
  | .iterable (.single as t) =>
    exact hX.seq0 (ps_attributes hX _) (hX.cons (by decide) (hX.seq0 (hX.angles (ps_attributedType hX _)) hX.semi))
  | .iterable (.double as t) =>
    exact hX.seq0 (ps_attributes hX _) (hX.cons (by decide) (hX.seq0 (hX.angles (ps_typePair hX _)) hX.semi))
  | .asyncIterable (.single as t args) =>
    exact hX.seq0 (ps_attributes hX _) (hX.cons (by decide) (hX.cons (by decide)
      (hX.seq0 (hX.angles (ps_attributedType hX _)) (hX.seq0 (ps_optArgumentList hX _) hX.semi))))
  | .asyncIterable (.double as t args) =>
    exact hX.seq0 (ps_attributes hX _) (hX.cons (by decide) (hX.cons (by decide)
      (hX.seq0 (hX.angles (ps_typePair hX _)) (hX.seq0 (ps_optArgumentList hX _) hX.semi))))
  | .maplike m =>
    exact hX.seq0 (ps_attributes hX _) (hX.seq0 (hX.opt _ (by decide)) (hX.cons (by decide)
      (hX.seq0 (hX.angles (ps_typePair hX _)) hX.semi)))
  | .setlike m =>
    exact hX.seq0 (ps_attributes hX _) (hX.seq0 (hX.opt _ (by decide)) (hX.cons (by decide)
      (hX.seq0 (hX.angles (ps_attributedType hX _)) hX.semi)))
  | .stringifier m => exact ps_stringifier hX m

theorem ps_mixinMember (m : MixinMember) : X 1 (mixinMember m) := by
  match m with
  | .const m => exact ps_const hX m
  | .operation m => exact hX.seq0 (ps_attributes hX _) (ps_optWord hX (by decide) (ps_operation hX _ _ _))
  | .attribute m =>
    exact hX.seq0 (ps_attributes hX _) (hX.seq0 (hX.opt _ (by decide)) (ps_attribute hX (ps_namedAttributed hX _ _) _))
  | .stringifier m => exact ps_stringifier hX m

theorem ps_namespaceMember (m : NamespaceMember) :
    X 1 (namespaceMember m) := by
  match m with
  | .const m => exact ps_const hX m
  | .operation m => exact hX.seq0 (ps_attributes hX _) (ps_operation hX _ _ _)
  | .attribute m => exact hX.seq0 (ps_attributes hX _) (ps_attribute hX (ps_namedAttributed hX _ _) true)

theorem ps_dictionaryMember (m : DictionaryMember) :
    X 1 (dictionaryMember m) :=
  hX.seq0 (ps_attributes hX _) (ps_optWord hX (by decide) (hX.seq0 (hX.named (ps_type hX _))
    (hX.seq0 (ps_default hX _) hX.semi)))

/-! ## Definitions -/

theorem ps_inheritance (i : Option Str) : X 0 (inheritance i) := by
  cases i with
  | none => exact hX.eps
  | some i => exact hX.cons (by decide) (hX.name i)

theorem ps_body {α : Type} {L : α → Lang} {ms : List α} (h : ∀ m, X 1 (L m)) :
    X (ms.length + 1) (body L ms) := by
  have := hX.concat (fun _ => 1) ms fun m _ => h m
  simp only [List.map_const', List.sum_replicate_nat, Nat.mul_one] at this
  exact hX.seq (hX.braces this) hX.semi

theorem ps_definition (he : ∀ as i vs, X 1 (definition (.enum as i vs))) (d : Definition) :
    X (memberCount d + 1) (definition d) := by
  have hi : ∀ (i : Str) (inh : Option Str) ms, X (ms.length + 1) (name i ⨾ inheritance inh ⨾ body interfaceMember ms) := fun i inh ms =>
    hX.seq0 (hX.name i) (hX.seq0 (ps_inheritance hX inh) (ps_body hX (ps_interfaceMember hX)))
  match d with
  | .callback as i r args =>
    exact hX.seq0 (ps_attributes hX _) (hX.cons (by decide) (hX.seq0 (hX.name i) (hX.cons (by decide)
      (hX.seq0 (ps_returnType hX r) (hX.seq0 (ps_argumentList hX _) hX.semi)))))
  | .callbackInterface as i inh ms =>
    exact hX.seq0 (ps_attributes hX _) (hX.cons (by decide) (hX.cons (by decide) (hi i inh ms)))
  | .interface as i inh ms => exact hX.seq0 (ps_attributes hX _) (hX.cons (by decide) (hi i inh ms))
  | .interfaceMixin as i ms =>
    exact hX.seq0 (ps_attributes hX _) (hX.cons (by decide) (hX.cons (by decide)
      (hX.seq0 (hX.name i) (ps_body hX (ps_mixinMember hX)))))
  | .namespace as i ms =>
    exact hX.seq0 (ps_attributes hX _) (hX.cons (by decide) (hX.seq0 (hX.name i) (ps_body hX (ps_namespaceMember hX))))
  | .dictionary as i inh ms =>
    exact hX.seq0 (ps_attributes hX _) (hX.cons (by decide) (hX.seq0 (hX.name i) (hX.seq0 (ps_inheritance hX inh)
      (ps_body hX (ps_dictionaryMember hX)))))
  | .partialInterface as i ms =>
    exact hX.seq0 (ps_attributes hX _) (hX.cons (by decide) (hX.cons (by decide)
      (hX.seq0 (hX.name i) (ps_body hX (ps_interfaceMember hX)))))
  | .partialInterfaceMixin as i ms =>
    exact hX.seq0 (ps_attributes hX _) (hX.cons (by decide) (hX.cons (by decide) (hX.cons (by decide)
      (hX.seq0 (hX.name i) (ps_body hX (ps_mixinMember hX))))))
  | .partialDictionary as i ms =>
    exact hX.seq0 (ps_attributes hX _) (hX.cons (by decide) (hX.cons (by decide)
      (hX.seq0 (hX.name i) (ps_body hX (ps_dictionaryMember hX)))))
  | .partialNamespace as i ms =>
    exact hX.seq0 (ps_attributes hX _) (hX.cons (by decide) (hX.cons (by decide)
      (hX.seq0 (hX.name i) (ps_body hX (ps_namespaceMember hX)))))
  | .enum as i vs => exact he as i vs
  | .typedef as t i =>
    exact hX.seq0 (ps_attributes hX _) (hX.cons (by decide) (hX.seq0 (ps_namedAttributed hX _ _) hX.semi))
  | .includesStatement as l r =>
    exact hX.seq0 (ps_attributes hX _) (hX.seq0 (hX.avoiding (hX.name l)) (hX.cons (by decide)
      (hX.seq0 (hX.name r) hX.semi)))
  | .implements as l r =>
    exact hX.seq0 (ps_attributes hX _) (hX.seq0 (hX.avoiding (hX.name l)) (hX.cons (by decide)
      (hX.seq0 (hX.name r) hX.semi)))

theorem ps_definitions (he : ∀ as i vs, X 1 (definition (.enum as i vs))) (ds : List Definition) :
    X (ds.map fun d => memberCount d + 1).sum (definitions ds) :=
  hX.concat _ ds fun d _ => ps_definition hX he d

end

end Verif
