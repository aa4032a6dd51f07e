import Verif.Source.ConvType
import Verif.Proof.CompleteTree

/-! # Types and arguments -/

namespace Verif.Source
open Nom

section
variable {α β : Type} {T : RTy} {g : G α} {tr : α → Val} {s : Str} {γ : Type} {V : Val → γ}

/-- `MayBeNull<T>` -/
theorem c_null {b : Bool} [Guarded true g b] {f : α → Bool → β} {tr' : β → γ} (h : C T g tr s)
    (e : ∀ a q, V (nullVal (tr a) q) = tr' (f a q)) :
    Conv V (fun n => parse decls n (.path1 c!"MayBeNull" T)) (G.mayBeNull f g).parse tr' s :=
  conv_struct find_MayBeNull <| g_field h fun _ a _ => g_field (c_optPunct .qMark _) fun _ q _ => g_ret (e a q)

theorem g_pair {W U : RTy} {g' : G β} {tr' : β → Val} {γ : Type} {b b' : Bool} [Guarded true g b] [Guarded true g' b']
    {f : α → β → γ} {v : γ → Val} (h : C W g tr s) (h' : Below (C U g' tr') s)
    (e : ∀ x y, .pair (tr x) (tr' y) = v (f x y)) :
    C (.path2 c!"(,)" W U) (g.bind fun x => g'.bind fun y => .ret (f x y)) v s := by
  refine conv_step find_pair ?_
  exact conv_seq (t := tr) h fun r x e1 => conv_seq (t := tr') (h' r (length_le e1)) fun r y _ => conv_ret (e x y)

theorem g_triple {W U X : RTy} {g' : G β} {tr' : β → Val} {γ δ : Type} {g'' : G γ} {tr'' : γ → Val} {b b' b'' : Bool}
    [Guarded true g b] [Guarded true g' b'] [Guarded true g'' b'']
    {f : α → β → γ → δ} {v : δ → Val} (h : C W g tr s) (h' : Below (C U g' tr') s) (h'' : Below (C X g'' tr'') s)
    (e : ∀ x y z, .triple (tr x) (tr' y) (tr'' z) = v (f x y z)) :
    C (.path3 c!"(,,)" W U X) (g.bind fun x => g'.bind fun y => g''.bind fun z => .ret (f x y z)) v s := by
  refine conv_step find_triple ?_
  refine conv_seq (t := tr) h fun r x e1 => ?_
  have h1 := length_le e1
  refine conv_seq (t := tr') (h' r h1) fun r' y e2 => ?_
  have h2 := length_le e2
  exact conv_seq (t := tr'') (h'' r' (by omega)) fun r z _ => conv_ret (e x y z)

end

theorem bind_assoc {α β γ : Type} (g : G α) (f : α → G β) (k : β → G γ) :
    ((g.bind f).bind k).parse = (g.bind fun a => (f a).bind k).parse := seq_assoc _ _ _

/-- two keywords in a pair, which the model reads as two keywords in a row -/
theorem c_kwPair (k k' : Kw) (s : Str) :
    C (.path2 c!"(,)" (.path0 (kwType k)) (.path0 (kwType k')))
      ((G.kw k).bind fun _ => (G.kw k').bind fun _ => .ret ()) (fun _ => .pair (kwVal k) (kwVal k')) s :=
  g_pair (c_kw k s) (fun r _ => c_kw k' r) fun _ _ => rfl

theorem g_kwPair {γ β : Type} {V : Val → γ} {d : RTy → Val} {nm x : Str} {w : Nat → RTy → P Char Val} {t : RTy}
    {fs : List Field} {env : Env} {s : Str} {tr : β → γ} {k k' : Kw} {g : G β}
    (hw : ∀ n, w n t = parse decls n (.path2 c!"(,)" (.path0 (kwType k)) (.path0 (kwType k'))))
    (h : ∀ r, r.length ≤ s.length →
      Conv V (fun n => fields (w n) d nm fs (env ++ [(x, .pair (kwVal k) (kwVal k'))])) g.parse tr r) :
    Conv V (fun n => fields (w n) d nm (⟨x, t, .weedle⟩ :: fs) env)
      ((G.kw k).bind fun _ => (G.kw k').bind fun _ => g).parse tr s := by
  refine Conv.of_eq (q := (((G.kw k).bind fun _ => (G.kw k').bind fun _ => .ret ()).bind fun _ => g).parse)
    (conv_field (tr0 := fun _ => .pair (kwVal k) (kwVal k')) ?_ fun r _ e => h r ?_) ?_
  · simp only [hw]
    exact c_kwPair k k' s
  · have i : Guarded true ((G.kw k).bind fun _ => (G.kw k').bind fun _ => .ret ()) true :=
      .bindT (guarded_kw k) fun _ => .bindF (guarded_kw k').toFalse fun _ => .ret
    exact length_le (g := (G.kw k).bind fun _ => (G.kw k').bind fun _ => .ret ()) e
  · show seq _ _ s = seq (seq _ _) _ s
    rw [seq_assoc]
    refine congrFun (congrArg _ (funext fun _ => ?_)) s
    show seq _ _ = seq (seq _ _) _
    rw [seq_assoc]
    rfl

theorem c_integerType (s : Str) : C (.path0 c!"IntegerType") G.integerType integerTypeVal s := by
  refine conv_enum find_IntegerType <| g_variants ?_ <| g_variants ?_ <| g_variants ?_ g_variantsNil
  · exact conv_struct find_LongLongType <| g_field (c_optKw .unsigned _) fun _ _ _ =>
      g_kwPair (k := .long) (k' := .long) (fun _ => rfl) fun _ _ => g_ret rfl
  · exact conv_struct find_LongType <| g_field (c_optKw .unsigned _) fun _ _ _ => g_field (c_kw .long _) fun _ _ _ => g_ret rfl
  · exact conv_struct find_ShortType <| g_field (c_optKw .unsigned _) fun _ _ _ =>
      g_field (c_kw .short _) fun _ _ _ => g_ret rfl

theorem c_floatingPointType (s : Str) : C (.path0 c!"FloatingPointType") G.floatingPointType floatingPointTypeVal s := by
  refine conv_enum find_FloatingPointType <| g_variants ?_ <| g_variants ?_ g_variantsNil
  · exact conv_struct find_FloatType <| g_field (c_optKw .unrestricted _) fun _ _ _ =>
      g_field (c_kw .float _) fun _ _ _ => g_ret rfl
  · exact conv_struct find_DoubleType <| g_field (c_optKw .unrestricted _) fun _ _ _ =>
      g_field (c_kw .double _) fun _ _ _ => g_ret rfl

theorem c_constType (s : Str) : C (.path0 c!"ConstType") G.constType constTypeVal s :=
  conv_enum find_ConstType <|
    g_variants (c_null (c_integerType s) fun _ _ => rfl) <|
    g_variants (c_null (c_floatingPointType s) fun _ _ => rfl) <|
    g_variants (c_null (c_kw .boolean s) fun _ _ => rfl) <|
    g_variants (c_null (c_kw .byte s) fun _ _ => rfl) <|
    g_variants (c_null (c_kw .octet s) fun _ _ => rfl) <|
    g_variants (c_null (c_ident s) fun _ _ => rfl) g_variantsNil

section
variable {s : Str}

theorem c_unionType (h : Shorter Rec s) :
    C (.path0 c!"UnionType") G.unionType (fun ms => parenVal (punctuatedVal (kwVal .or) (unionMemberVals ms))) s := by
  simp only [unionMemberVals_eq]
  exact conv_alias find_UnionType <| c_paren fun r hr =>
    c_punctuated (fun r' hr' => h r' (by omega) _ .unionMember) fun r _ => c_kw .or r

theorem c_returnTypeOf {g : G Ty} (h : C (.path0 c!"Type") g typeVal s) :
    C (.path0 c!"ReturnType") (G.returnTypeOf g) returnTypeVal s :=
  conv_enum find_ReturnType <| g_variants (g_kwAs (k := .undefined) rfl) <|
    g_variants (g_variant h fun _ => rfl) g_variantsNil

theorem c_recordKeyType (h : Rec s) : C (.path0 c!"RecordKeyType") G.recordKeyType recordKeyTypeVal s :=
  conv_enum find_RecordKeyType <|
    g_variants (g_kwAs (k := .byteString) rfl) <| g_variants (g_kwAs (k := .domString) rfl) <|
    g_variants (g_kwAs (k := .usvString) rfl) <| g_variants (g_variant (h _ .nonAny) fun _ => rfl) g_variantsNil

theorem c_sequenceType (h : Shorter Rec s) : C (.path0 c!"SequenceType") G.sequenceType (fun t => .struct c!"SequenceType"
    [(c!"sequence", kwVal .sequence), (c!"generics", genericsVal (.box (typeVal t)))]) s :=
  conv_struct find_SequenceType <| g_field (c_kw .sequence _) fun _ _ h1 =>
    g_last (c_generics fun r hr => c_box (h r (by omega) _ .type)) fun _ => rfl

theorem c_frozenArrayType (h : Shorter Rec s) :
    C (.path0 c!"FrozenArrayType") G.frozenArrayType (fun t => .struct c!"FrozenArrayType"
      [(c!"frozen_array", kwVal .frozenArray), (c!"generics", genericsVal (.box (typeVal t)))]) s :=
  conv_struct find_FrozenArrayType <| g_field (c_kw .frozenArray _) fun _ _ h1 =>
    g_last (c_generics fun r hr => c_box (h r (by omega) _ .type)) fun _ => rfl

theorem c_recordType (h : Shorter Rec s) :
    C (.path0 c!"RecordType") G.recordType (fun kv => .struct c!"RecordType"
      [(c!"record", kwVal .record),
       (c!"generics", genericsVal (.triple (.box (recordKeyTypeVal kv.1)) (punctVal .comma) (.box (typeVal kv.2))))]) s :=
  conv_struct find_RecordType <| g_field (c_kw .record _) fun _ _ h1 =>
    g_last (c_generics (tr := fun kv => .triple (.box (recordKeyTypeVal kv.1)) (punctVal .comma) (.box (typeVal kv.2)))
      fun r hr => g_triple (c_box (c_recordKeyType (h r (by omega)))) (fun r _ => c_punct .comma r)
      (fun r' hr' => c_box (h r' (by omega) _ .type)) fun _ _ _ => rfl) fun _ => rfl

theorem c_builtin {γ : Type} {V : Val → γ} {tr : NonAnyType → γ} (b : Builtin)
    (e : ∀ q, V (nullVal (.token (builtinName b)) q) = tr (.builtin b q)) :
    Conv V (fun n => parse decls n (.path1 c!"MayBeNull" (.path0 (builtinName b)))) (G.builtin b).parse tr s := by
  have h : builtinName b = kwType (G.builtinKw b) := by cases b <;> rfl
  rw [h]
  refine Conv.of_eq (q := (G.mayBeNull (fun _ q => .builtin b q) (G.kw (G.builtinKw b))).parse)
    (c_null (c_kw _ s) fun _ q => ?_) ?_
  · rw [← e q, h]
    rfl
  · show seq (seq _ _) _ s = seq _ _ s
    rw [seq_assoc]
    rfl

theorem c_promiseType {γ : Type} {V : Val → γ} {tr : NonAnyType → γ} (h : Shorter Rec s)
    (e : ∀ r, V (.struct c!"PromiseType"
      [(c!"promise", kwVal .promise), (c!"generics", genericsVal (.box (returnTypeVal r)))]) = tr (.promise r)) :
    Conv V (fun n => parse decls n (.path0 c!"PromiseType")) G.promiseType.parse tr s :=
  conv_struct find_PromiseType <| g_field (c_kw .promise _) fun _ _ h1 =>
    g_field (c_generics fun r hr => c_box (c_returnTypeOf (h r (by omega) _ .type))) fun _ a _ => g_ret (e a)

theorem c_nonAnyType (h : Shorter Rec s) : C (.path0 c!"NonAnyType") G.nonAnyType nonAnyTypeVal s :=
  conv_enum find_NonAnyType <|
    g_variants (c_promiseType h fun _ => rfl) <|
    g_variants (c_null (c_integerType s) fun _ _ => rfl) <|
    g_variants (c_null (c_floatingPointType s) fun _ _ => rfl) <|
    g_variants (c_builtin .boolean fun _ => rfl) <|
    g_variants (c_builtin .byte fun _ => rfl) <|
    g_variants (c_builtin .octet fun _ => rfl) <|
    g_variants (c_builtin .byteString fun _ => rfl) <|
    g_variants (c_builtin .domString fun _ => rfl) <|
    g_variants (c_builtin .usvString fun _ => rfl) <|
    g_variants (c_null (c_sequenceType h) fun _ _ => rfl) <|
    g_variants (c_builtin .object fun _ => rfl) <|
    g_variants (c_builtin .symbol fun _ => rfl) <|
    g_variants (c_builtin .error fun _ => rfl) <|
    g_variants (c_builtin .arrayBuffer fun _ => rfl) <|
    g_variants (c_builtin .dataView fun _ => rfl) <|
    g_variants (c_builtin .int8Array fun _ => rfl) <|
    g_variants (c_builtin .int16Array fun _ => rfl) <|
    g_variants (c_builtin .int32Array fun _ => rfl) <|
    g_variants (c_builtin .uint8Array fun _ => rfl) <|
    g_variants (c_builtin .uint16Array fun _ => rfl) <|
    g_variants (c_builtin .uint32Array fun _ => rfl) <|
    g_variants (c_builtin .uint8ClampedArray fun _ => rfl) <|
    g_variants (c_builtin .float32Array fun _ => rfl) <|
    g_variants (c_builtin .float64Array fun _ => rfl) <|
    g_variants (c_builtin .arrayBufferView fun _ => rfl) <|
    g_variants (c_builtin .bufferSource fun _ => rfl) <|
    g_variants (c_null (c_frozenArrayType h) fun _ _ => rfl) <|
    g_variants (c_null (c_recordType h) fun _ _ => rfl) <|
    g_variants (c_null (c_ident s) fun _ _ => rfl) g_variantsNil

theorem c_singleType (h : Shorter Rec s) : C (.path0 c!"SingleType") G.singleType singleTypeVal s :=
  conv_enum find_SingleType <| g_variants (g_kwAs (k := .any) rfl) <|
    g_variants (g_variant (c_nonAnyType h) fun _ => rfl) g_variantsNil

theorem c_type (h : Shorter Rec s) : C (.path0 c!"Type") G.type typeVal s :=
  conv_enum find_Type <| g_variants (g_variant (c_singleType h) fun _ => rfl) <|
    g_variants (c_null (c_unionType h) fun _ _ => rfl) g_variantsNil

theorem c_unionMemberType (h : Shorter Rec s) : C (.path0 c!"UnionMemberType") G.unionMemberType unionMemberVal s :=
  conv_enum find_UnionMemberType <| g_variants
    (conv_struct find_AttributedNonAnyType <| g_field (c_attrs h) fun _ _ h1 =>
      g_field (c_nonAnyType (h.mono h1)) fun _ _ _ => g_ret rfl) <|
    g_variants (c_null (c_unionType h) fun _ _ => rfl) g_variantsNil

theorem c_returnType (h : Shorter Rec s) : C (.path0 c!"ReturnType") G.returnType returnTypeVal s :=
  c_returnTypeOf (c_type h)

theorem c_attributedType (h : Shorter Rec s) : C (.path0 c!"AttributedType") G.attributedType attributedTypeVal s :=
  conv_struct find_AttributedType <| g_field (c_attrs h) fun _ _ h1 =>
    g_field (c_type (h.mono h1)) fun _ _ _ => g_ret rfl

theorem c_singleArgument {γ : Type} {V : Val → γ} {tr : Argument → γ} (h : Shorter Rec s)
    (e : ∀ as o t i d, V (.struct c!"SingleArgument"
      [(c!"attributes", attrsVal as), (c!"optional", flagVal (kwVal .optional) o), (c!"type_", attributedTypeVal t),
       (c!"identifier", identVal i), (c!"default", optVal defaultVal d)]) = tr (.single as o t i d)) :
    Conv V (fun n => parse decls n (.path0 c!"SingleArgument")) G.singleArgument.parse tr s := by
  refine conv_struct find_SingleArgument <| g_field (c_attrs h) fun _ as h1 => g_field (c_optKw .optional _) fun _ o h2 =>
    g_field (c_attributedType ((h.mono h1).mono h2)) fun _ t _ => g_field (c_ident _) fun s i _ =>
    conv_fieldMac (t := .path1 c!"Option" (.path0 c!"Default")) (tr0 := optVal defaultVal) ?_ fun _ d _ => g_ret (e as o t i d)
  refine conv_mapL ?_
  cases o with
  | false => exact conv_ret rfl
  | true =>
    refine conv_mapL (conv_mapL (F := some) (conv_mapR (conv_mapR ?_)))
    exact (c_opt (c_default s)).congr fun _ => rfl

theorem c_argument (h : Shorter Rec s) : C (.path0 c!"Argument") G.argument argumentVal s :=
  conv_enum find_Argument <| g_variants (c_singleArgument h fun _ _ _ _ _ => rfl) <| g_variants
    (conv_struct find_VariadicArgument <| g_field (c_attrs h) fun _ _ h1 => g_field (c_type (h.mono h1)) fun _ _ _ =>
      g_field (c_punct .ellipsis _) fun _ _ _ => g_field (c_ident _) fun _ _ _ => g_ret rfl) g_variantsNil

end

/-- The recursive parsers agree. -/
theorem rec_all (s : Str) : Rec s := by
  generalize hn : s.length = n
  induction n using Nat.strongRecOn generalizing s with
  | ind n ih =>
    subst hn
    have h : Shorter Rec s := fun r hr => ih r.length hr r rfl
    intro α N
    refine Conv.of_eq (q := (G.body N).parse) ?_ (ntLim_eq charLeaf_fine N s)
    cases N with
    | type => exact c_type h
    | nonAny => exact c_nonAnyType h
    | unionMember => exact c_unionMemberType h
    | argument => exact c_argument h

theorem shorter_all (s : Str) : Shorter Rec s := fun r _ => rec_all r

end Verif.Source
