import Verif.Proof.CompleteLit

/-!
# Completeness: types, attributes and arguments
-/

set_option linter.unusedSectionVars false

namespace Verif
open Nom Spec

variable {σ α β : Type} [DecidableEq σ] {leaf : ∀ α, Leaf α → P σ α}
  {Step : List σ → Str → List σ → Prop} {s m r : List σ}

theorem guarded_call {α : Type} (N : NT α) : Guarded true (.call N) true := inferInstance
theorem guarded_extAttr : Guarded true G.extAttr true := inferInstance
theorem guarded_kw (k : Kw) : Guarded true (G.kw k) true := inferInstance
theorem guarded_punct (k : Punct) : Guarded true (G.punct k) true := inferInstance
theorem guarded_ident : Guarded true G.ident true := inferInstance
theorem guarded_stringLit : Guarded true G.stringLit true := inferInstance

theorem rl_sepBy {sep A B : Lang} {As : List Lang} : RL Step (sepBy sep (A :: B :: As)) s r ↔
    ∃ m, RL Step A s m ∧ ∃ n, RL Step sep m n ∧ RL Step (sepBy sep (B :: As)) n r := by
  simp only [sepBy, rl_seq]

variable (Step) in
/-- `or` or the end of a value is next. -/
def UnionEnd (r : List σ) : Prop := (∃ r', Step r c!"or" r') ∨ StopAt Step r

section
variable (hE : Exact leaf Step)
include hE

theorem unionEnd_tf {ls : List Str} (h : UnionEnd Step r) : TF Step ls r := by
  obtain ⟨r', h⟩ | h := h
  · exact tf_of_step hE (solid_kw .or) h (by decide)
  · exact tf_stop hE h

theorem closer_stop {p : Str} (hp : p ∈ closers) (h : Step r p m) : StopAt Step r := .inr ⟨p, m, hp, h⟩

theorem attrEnd_ko {p : Punct} (h : StopAt Step r) (hp : p = .openParen ∨ p = .assign) :
    Ko leaf (G.punct p) r := by
  refine koPunct_of hE (stop_notNext hE h (solid_punct ?_ ?_) ?_) <;> rcases hp with rfl | rfl <;> decide

/-- The identifiers of `[A=(a, b)]`. -/
theorem okNames : ∀ {is : List Str} {s r r' : List σ}, RL Step (sepBy comma (is.map name)) s r →
    Step r c!")" r' → Elems ((G.punct .comma).run leaf (ntLim leaf)) (G.ident.run leaf (ntLim leaf)) s is r
  | [], s, r, r', h, _ => rl_eps.1 h
  | [i], s, r, r', h, _ => by
    obtain ⟨w, h1, h2⟩ := rl_name.1 h
    exact ⟨r, okIdent hE h1 h2, .nil⟩
  | i :: j :: is, s, r, r', h, h' => by
    obtain ⟨m, h1, n, h2, h3⟩ := rl_sepBy.1 h
    obtain ⟨w, h1, h4⟩ := rl_name.1 h1
    exact elems_cons hE (guarded_punct _) (okIdent hE h1 h4) (okPunct hE (p := .comma) (rl_tok.1 h2))
      (by simp) (okNames h3 h')

theorem okCommaList {g : G α} (hg : Guarded true g true) {as : List α}
    (h : Elems ((G.punct .comma).run leaf (ntLim leaf)) (g.run leaf (ntLim leaf)) s as r)
    (h1 : Ko leaf (G.punct .comma) r) (h2 : Ko leaf g r) : Ok leaf (G.commaList g) s r as :=
  okSepList hE hg (guarded_punct _) h h1 h2

/-- A type that begins with `w`, not a keyword, is a name. -/
theorem type_optional {t : Ty} {ls : List Str} (h : type t ls) (hr : Reads Step s ls r)
    (ho : Step s c!"optional" m) : m = r ∨ Step m c!"?" r := by
  obtain ⟨w, ls', rfl, h1⟩ := solid_type_head hE h
  cases hr with
  | cons h2 h3 =>
    obtain rfl := hE.uniq h2 ho (.inl h1) (.inl (solid_kw .optional))
    obtain rfl := hE.det h2 ho
    rcases type_word h (by decide) (by decide) with rfl | rfl
    · exact .inl (reads_nil.1 h3)
    · exact .inr (reads_one.1 h3)

/-- The alternatives of an extended attribute, at the lexeme after the identifier. -/
theorem koExt {g : G α} {f : Str → α → G β} {i : Str} (h : Ok leaf G.ident s m i)
    (h' : Ko leaf g m) : Ko leaf (G.ident >>= fun i => g >>= f i) s := .right h (.left h')

mutual

theorem ok_type : ∀ (t : Ty) {ls : List Str} {s r : List σ}, type t ls → Reads Step s ls r →
    TF Step ls r → Ok leaf G.type s r t
  | .single .any, ls, s, r, h, hr, hf => by
    simp only [type, singleType] at h
    cases h
    exact .here (.variant (.here (okKwAs hE (k := .any) (reads_one.1 hr))))
  | .single (.nonAny t), ls, s, r, h, hr, hf => by
    simp only [type, singleType] at h
    obtain ⟨h1, h2⟩ := h
    obtain ⟨i, w, ls', hl, h3⟩ := nonAnyType_head h1
    have h4 := avoid_notNext hE hl (.inl ⟨i, h3⟩) (solid_kw .any) hr (h2 _ (by simp [Kw.text]))
    exact .here (.variant (.next (.kwAs (koKw_of hE (k := .any) h4)) (.here (.variant
      (ok_nonAnyType t h1 hr hf)))))
  | .union ms q, ls, s, r, h, hr, hf => by
    simp only [type] at h
    obtain ⟨n, h1, h2⟩ := rl_seq.1 (hr.rl h)
    obtain ⟨m1, h3, m2, h4, h5⟩ := rl_parens.1 h1
    exact .next (.variant (dull_punct hE (p := .openParen) h3).singleType) <|
      .here (okNull hE (okParens hE h3 (okSepList hE (guarded_call _) (guarded_kw _)
        (ok_unionMembers ms h4 h5) (koKw hE (solid_punct (p := .closeParen) (by decide) (by decide)) h5
          (by decide)) (koCall hE (dead_punct hE (p := .closeParen) h5).unionMember)) h5) h2 hf.2.1)

theorem ok_nonAnyType : ∀ (t : NonAnyType) {ls : List Str} {s r : List σ}, nonAnyType t ls →
    Reads Step s ls r → TF Step ls r → Ok leaf G.nonAnyType s r t
  | .promise t, ls, s, r, h, hr, hf => by
    simp only [nonAnyType] at h
    obtain ⟨n, h1, h2⟩ := rl_seq.1 (hr.rl h)
    obtain ⟨m1, h3, m2, ⟨l, h4, h4'⟩, h5⟩ := rl_angles.1 h2
    exact .here (.bind (okKw hE (k := .promise) (rl_tok.1 h1)) (.bind (okAngles hE h3
      (ok_returnType t h4 h4' (tf_punct hE (p := .greaterThan) h5)) h5) .pure))
  | .integer t q, ls, s, r, h, hr, hf => by
    simp only [nonAnyType] at h
    obtain ⟨k, ls', hl, hk⟩ := integer_head hE h
    have hr' := hr
    rw [hl] at hr'
    cases hr' with
    | cons h1 h2 =>
      refine .next (koGeneric hE (solid_kw k) h1 fun e => ?_) (.here (okIntegerType hE h hr hf))
      exfalso
      have := kw_inj e
      subst this
      revert hk; decide
  | .floatingPoint t q, ls, s, r, h, hr, hf => by
    simp only [nonAnyType] at h
    obtain ⟨k, ls', hl, hk⟩ := floating_head hE h
    have hr' := hr
    rw [hl] at hr'
    have ne : ∀ {k'}, k ≠ k' → k.text ≠ k'.text := fun h h' => h (kw_inj h')
    cases hr' with
    | cons h1 h2 =>
      have n : ∀ k', k' ∉ [Kw.unrestricted, .float, .double] → k ≠ k' := by
        rintro k' h' rfl; exact h' hk
      refine .next (koGeneric hE (solid_kw k) h1 fun e => absurd (kw_inj e) (n _ (by decide)))
        (.next (.mayBeNull (koInteger hE (solid_kw k) h1 (ne (k' := .long) (n _ (by decide)))
          (ne (k' := .short) (n _ (by decide))) fun e => absurd (kw_inj (k' := .unsigned) e) (n _ (by decide))))
        (.here (okFloatingType hE h hr hf)))
  | .builtin b q, ls, s, r, h, hr, hf => by
    simp only [nonAnyType, builtin_kw hE] at h
    obtain ⟨n, h1, h2⟩ := rl_seq.1 (hr.rl h)
    have h1 := rl_tok.1 h1
    exact okSequence hE h1 (.inr (.inr (.inr ⟨b, rfl, rfl⟩))) (okNull hE (okKwAs hE h1) h2 hf.2.1)
  | .sequence t q, ls, s, r, h, hr, hf => by
    simp only [nonAnyType] at h
    obtain ⟨n, h1, h2⟩ := rl_seq.1 (hr.rl h)
    obtain ⟨m0, h1, h1'⟩ := rl_seq.1 h1
    obtain ⟨m1, h3, m2, ⟨l, h4, h4'⟩, h5⟩ := rl_angles.1 h1'
    have h1 := rl_tok.1 h1
    exact okSequence hE (k := .sequence) h1 (.inl ⟨rfl, rfl⟩) (okNull hE
      (.bind (okKw hE (k := .sequence) h1) (okAngles hE h3 (okCall hE
        (ok_type t h4 h4' (tf_punct hE (p := .greaterThan) h5))) h5)) h2 hf.2.1)
  | .frozenArray t q, ls, s, r, h, hr, hf => by
    simp only [nonAnyType] at h
    obtain ⟨n, h1, h2⟩ := rl_seq.1 (hr.rl h)
    obtain ⟨m0, h1, h1'⟩ := rl_seq.1 h1
    obtain ⟨m1, h3, m2, ⟨l, h4, h4'⟩, h5⟩ := rl_angles.1 h1'
    have h1 := rl_tok.1 h1
    exact okSequence hE (k := .frozenArray) h1 (.inr (.inl ⟨rfl, rfl⟩)) (okNull hE
      (.bind (okKw hE (k := .frozenArray) h1) (okAngles hE h3 (okCall hE
        (ok_type t h4 h4' (tf_punct hE (p := .greaterThan) h5))) h5)) h2 hf.2.1)
  | .record k t q, ls, s, r, h, hr, hf => by
    simp only [nonAnyType] at h
    obtain ⟨n, h1, h2⟩ := rl_seq.1 (hr.rl h)
    obtain ⟨m0, h1, h1'⟩ := rl_seq.1 h1
    obtain ⟨m1, h3, m2, h4, h5⟩ := rl_angles.1 h1'
    obtain ⟨m3, ⟨l, h6, h6'⟩, h7⟩ := rl_seq.1 h4
    obtain ⟨m4, h7, ⟨l', h8, h8'⟩⟩ := rl_seq.1 h7
    have h1 := rl_tok.1 h1
    have h7 := rl_tok.1 h7
    exact okSequence hE (k := .record) h1 (.inr (.inr (.inl ⟨rfl, rfl⟩))) (okNull hE
      (f := fun kv q => NonAnyType.record kv.1 kv.2 q) (a := (k, t))
      (.bind (okKw hE (k := .record) h1) (okAngles hE h3 (.bind
        (ok_recordKeyType k h6 h6' (tf_punct hE (p := .comma) h7))
        (.bind (okPunct hE (p := .comma) h7) (.bind (f := fun v => pure (k, v)) (okCall hE (N := .type)
        (ok_type t h8 h8' (tf_punct hE (p := .greaterThan) h5))) .pure))) h5)) h2 hf.2.1)
  | .identifier i q, ls, s, r, h, hr, hf => by
    simp only [nonAnyType] at h
    obtain ⟨a, b, rfl, ⟨h1, h2⟩, h3⟩ := h
    obtain ⟨m, h4, h5⟩ := hr.split
    obtain ⟨w, rfl, hw, hn⟩ : ∃ w, a = [w] ∧ name i [w] ∧ w ∉ typeWords := by
      rcases h2 with ⟨rfl, h2⟩ | rfl
      · exact ⟨_, rfl, ⟨h1, .inl rfl⟩, h2⟩
      · exact ⟨_, rfl, ⟨h1, .inr rfl⟩, fun h => typeWord_kw _ h _ rfl⟩
    exact okTypeName hE hw (reads_one.1 h4) hn ⟨b, h3, h5⟩ (tf_inner hE hf h5 h3)
      (tf_notLess hE hf ⟨b, h3, h5⟩) hf.2.1

theorem ok_recordKeyType : ∀ (t : RecordKeyType) {ls : List Str} {s r : List σ}, recordKeyType t ls →
    Reads Step s ls r → TF Step ls r → Ok leaf G.recordKeyType s r t
  | .byte, ls, s, r, h, hr, hf => by
    simp only [recordKeyType] at h
    exact .here (okKwAs hE (k := .byteString) (rl_tok.1 (hr.rl h)))
  | .dom, ls, s, r, h, hr, hf => by
    simp only [recordKeyType] at h
    have h := rl_tok.1 (hr.rl h)
    exact .next (.kwAs (koKw' hE (k := .domString) h)) (.here (okKwAs hE (k := .domString) h))
  | .usv, ls, s, r, h, hr, hf => by
    simp only [recordKeyType] at h
    have h := rl_tok.1 (hr.rl h)
    exact .next (.kwAs (koKw' hE (k := .usvString) h)) (.next (.kwAs (koKw' hE (k := .usvString) h))
      (.here (okKwAs hE (k := .usvString) h)))
  | .nonAny t, ls, s, r, h, hr, hf => by
    simp only [recordKeyType] at h
    obtain ⟨h1, h2⟩ := h
    obtain ⟨i, w, ls', hl, h3⟩ := nonAnyType_head h1
    have k : ∀ k : Kw, [k.text] ∈ [[c!"ByteString"], [c!"DOMString"], [c!"USVString"]] → Ko leaf (G.kw k) s :=
      fun k hk => koKw_of hE (avoid_notNext hE hl (.inl ⟨i, h3⟩) (solid_kw k) hr (h2 _ hk))
    exact .next (.kwAs (k .byteString (by decide))) (.next (.kwAs (k .domString (by decide)))
      (.next (.kwAs (k .usvString (by decide))) (.here (.variant (okCall hE (ok_nonAnyType t h1 hr hf))))))

theorem ok_unionMember : ∀ (t : UnionMember) {ls : List Str} {s r : List σ}, unionMember t ls →
    Reads Step s ls r → UnionEnd Step r → Ok leaf G.unionMemberType s r t
  | .single as t, ls, s, r, h, hr, hf => by
    simp only [unionMember] at h
    obtain ⟨a, b, rfl, h1, h2⟩ := h
    obtain ⟨m, h3, h4⟩ := hr.split
    exact .here (.bind (ok_attributes as h1 h3 fun _ => nonAny_notBracket hE h2 h4)
      (.bind (ok_nonAnyType t h2 h4 (unionEnd_tf hE hf)) .pure))
  | .union ms q, ls, s, r, h, hr, hf => by
    simp only [unionMember] at h
    obtain ⟨n, h1, h2⟩ := rl_seq.1 (hr.rl h)
    obtain ⟨m1, h3, m2, h4, h5⟩ := rl_parens.1 h1
    have h6 := dull_punct hE (p := .openParen) h3
    exact .next (.right h6.attrs (.left h6.nonAnyType)) <|
      .here (okNull hE (okParens hE h3 (okSepList hE (guarded_call _) (guarded_kw _)
        (ok_unionMembers ms h4 h5) (koKw hE (solid_punct (p := .closeParen) (by decide) (by decide)) h5
          (by decide)) (koCall hE (dead_punct hE (p := .closeParen) h5).unionMember)) h5) h2
          (unionEnd_tf hE (ls := []) hf).2.1)

theorem ok_unionMembers : ∀ (ms : List UnionMember) {s r r' : List σ},
    RL Step (sepBy (tok c!"or") (unionMembers ms)) s r → Step r c!")" r' →
    Elems ((G.kw .or).run leaf (ntLim leaf)) ((G.call .unionMember).run leaf (ntLim leaf)) s ms r
  | [], s, r, r', h, _ => by simp only [unionMembers] at h; exact rl_eps.1 h
  | [m], s, r, r', h, h' => by
    simp only [unionMembers] at h
    obtain ⟨l, h1, h2⟩ := h
    exact ⟨r, okCall hE (ok_unionMember m h1 h2 (.inr (closer_stop hE (by decide) h'))), .nil⟩
  | m :: m' :: ms, s, r, r', h, h' => by
    simp only [unionMembers] at h
    obtain ⟨m1, ⟨l, h1, h1'⟩, n, h2, h3⟩ := rl_sepBy.1 h
    have h2 := rl_tok.1 h2
    exact elems_cons hE (guarded_kw _) (okCall hE (ok_unionMember m h1 h1' (.inl ⟨_, h2⟩)))
      (okKw hE (k := .or) h2) (by simp) (ok_unionMembers (m' :: ms) (by simp only [unionMembers]; exact h3) h')

theorem ok_returnType : ∀ (t : ReturnType) {ls : List Str} {s r : List σ}, returnType t ls →
    Reads Step s ls r → TF Step ls r → Ok leaf (G.returnTypeOf (.call .type)) s r t
  | .undefined, ls, s, r, h, hr, hf => by
    simp only [returnType] at h
    exact .here (okKwAs hE (k := .undefined) (rl_tok.1 (hr.rl h)))
  | .type t, ls, s, r, h, hr, hf => by
    simp only [returnType] at h
    obtain ⟨h1, h2⟩ := h
    obtain ⟨w, ls', hl, h3⟩ := solid_type_head hE h1
    have h4 := avoid_notNext hE hl h3 (solid_kw .undefined) hr (h2 _ (by simp [Kw.text]))
    exact .next (.kwAs (koKw_of hE (k := .undefined) h4)) (.here (.variant (okCall hE (ok_type t h1 hr hf))))

theorem ok_extAttr : ∀ (t : ExtAttr) {ls : List Str} {s r : List σ}, extAttr t ls →
    Reads Step s ls r → StopAt Step r → Ok leaf G.extAttr s r t
  | .argList i args, ls, s, r, h, hr, hf => by
    simp only [extAttr] at h
    obtain ⟨m1, h1, h2⟩ := rl_seq.1 (hr.rl h)
    obtain ⟨w, h1, h1'⟩ := rl_name.1 h1
    obtain ⟨m2, h3, m3, h4, h5⟩ := rl_parens.1 h2
    exact .here (.bind (okIdent hE h1 h1') (.bind (okParens hE h3 (okCommaList hE (guarded_call _)
      (ok_arguments args h4 h5) (koPunct hE (solid_punct (p := .closeParen) (by decide) (by decide)) h5
        (by decide)) (koCall hE (dead_punct hE (p := .closeParen) h5).argument)) h5) .pure))
  | .namedArgList i j args, ls, s, r, h, hr, hf => by
    simp only [extAttr] at h
    obtain ⟨m1, h1, h2⟩ := rl_seq.1 (hr.rl h)
    obtain ⟨m2, h2, h3⟩ := rl_seq.1 h2
    obtain ⟨m3, h3, h4⟩ := rl_seq.1 h3
    obtain ⟨w, h1, h1'⟩ := rl_name.1 h1
    obtain ⟨w', h3, h3'⟩ := rl_name.1 h3
    obtain ⟨m4, h4, m5, h5, h6⟩ := rl_parens.1 h4
    have h2 := rl_tok.1 h2
    have i1 := okIdent hE h1 h1'
    have i2 := okIdent hE h3 h3'
    have sa := solid_punct (p := .assign) (by decide) (by decide)
    exact .next (.right i1 (.left (.left (koPunct hE sa h2 (by decide))))) <|
      .here (.bind i1 (.bind (okPunct hE (p := .assign) h2) (.bind i2 (.bind
      (okParens hE h4 (okCommaList hE (guarded_call _)
      (ok_arguments args h5 h6) (koPunct hE (solid_punct (p := .closeParen) (by decide) (by decide)) h6
        (by decide)) (koCall hE (dead_punct hE (p := .closeParen) h6).argument)) h6) .pure))))
  | .identList i is, ls, s, r, h, hr, hf => by
    simp only [extAttr] at h
    obtain ⟨m1, h1, h2⟩ := rl_seq.1 (hr.rl h)
    obtain ⟨m2, h2, h3⟩ := rl_seq.1 h2
    obtain ⟨w, h1, h1'⟩ := rl_name.1 h1
    obtain ⟨m4, h4, m5, h5, h6⟩ := rl_parens.1 h3
    have h2 := rl_tok.1 h2
    have i1 := okIdent hE h1 h1'
    have sa := solid_punct (p := .assign) (by decide) (by decide)
    have eq := okPunct hE (p := .assign) h2
    exact .next (.right i1 (.left (.left (koPunct hE sa h2 (by decide))))) <|
      .next (.right i1 (.right eq (.left (dull_punct hE (p := .openParen) h4).ident))) <|
      .here (.bind i1 (.bind eq (.bind
      (okParens hE h4 (okCommaList hE guarded_ident
      (okNames hE h5 h6) (koPunct hE (solid_punct (p := .closeParen) (by decide) (by decide)) h6
        (by decide)) (dead_punct hE (p := .closeParen) h6).ident) h6) .pure)))
  | .ident i (.identifier j), ls, s, r, h, hr, hf => by
    simp only [extAttr, identifierOrString] at h
    obtain ⟨m1, h1, h2⟩ := rl_seq.1 (hr.rl h)
    obtain ⟨m2, h2, h3⟩ := rl_seq.1 h2
    obtain ⟨w, h1, h1'⟩ := rl_name.1 h1
    obtain ⟨w', h3, h3'⟩ := rl_name.1 h3
    have h2 := rl_tok.1 h2
    have i1 := okIdent hE h1 h1'
    have i2 := okIdent hE h3 h3'
    have sa := solid_punct (p := .assign) (by decide) (by decide)
    have eq := okPunct hE (p := .assign) h2
    have np : Ko leaf (G.punct .openParen) m2 := koPunct hE (.inl ⟨j, h3⟩) h3'
      (by rintro rfl; exact name_ne_punct (p := .openParen) h3)
    exact .next (.right i1 (.left (.left (koPunct hE sa h2 (by decide))))) <|
      .next (.right i1 (.right eq (.right i2 (.left (.left (attrEnd_ko hE hf (.inl rfl))))))) <|
      .next (.right i1 (.right eq (.left (.left np)))) <|
      .here (.bind i1 (.bind eq (.bind (.here (.variant i2)) .pure)))
  | .ident i (.string v), ls, s, r, h, hr, hf => by
    simp only [extAttr, identifierOrString] at h
    obtain ⟨m1, h1, h2⟩ := rl_seq.1 (hr.rl h)
    obtain ⟨m2, h2, h3⟩ := rl_seq.1 h2
    obtain ⟨w, h1, h1'⟩ := rl_name.1 h1
    obtain ⟨hv, h3⟩ := rl_string.1 h3
    have h2 := rl_tok.1 h2
    have i1 := okIdent hE h1 h1'
    have sa := solid_punct (p := .assign) (by decide) (by decide)
    have eq := okPunct hE (p := .assign) h2
    have sv : Solid ('"' :: v ++ ['"']) := .inr (.inr (.inl ⟨v, hv, rfl⟩))
    have np : Ko leaf (G.punct .openParen) m2 := koPunct hE sv h3 (by simp [Punct.text])
    have ni : Ko leaf G.ident m2 := koIdent hE sv h3
      fun i h => string_not_wordy (.inl ⟨i, h⟩)
    exact .next (.right i1 (.left (.left (koPunct hE sa h2 (by decide))))) <|
      .next (.right i1 (.right eq (.left ni))) <|
      .next (.right i1 (.right eq (.left (.left np)))) <|
      .here (.bind i1 (.bind eq (.bind (.next (.variant ni) (.here (.variant (okString hE hv h3)))) .pure)))
  | .wildcard i, ls, s, r, h, hr, hf => by
    simp only [extAttr] at h
    obtain ⟨m1, h1, h2⟩ := rl_seq.1 (hr.rl h)
    obtain ⟨m2, h2, h3⟩ := rl_seq.1 h2
    obtain ⟨w, h1, h1'⟩ := rl_name.1 h1
    have h2 := rl_tok.1 h2
    have h3 := rl_tok.1 h3
    have i1 := okIdent hE h1 h1'
    have sa := solid_punct (p := .assign) (by decide) (by decide)
    have eq := okPunct hE (p := .assign) h2
    have sv : Solid c!"*" := solid_punct (p := .asterisk) (by decide) (by decide)
    have np : Ko leaf (G.punct .openParen) m2 := koPunct hE sv h3 (by decide)
    have ni : Ko leaf G.ident m2 := (dead_punct hE (p := .asterisk) h3).ident
    have ns : Ko leaf G.stringLit m2 := koStringLit hE sv h3 fun v hv => by simpa using hv.2
    exact .next (.right i1 (.left (.left (koPunct hE sa h2 (by decide))))) <|
      .next (.right i1 (.right eq (.left ni))) <|
      .next (.right i1 (.right eq (.left (.left np)))) <|
      .next (.right i1 (.right eq (.left (.altsCons (.variant ni) (.altsCons (.variant ns) .altsNil))))) <|
      .here (.bind i1 (.bind eq (.bind (okPunct hE (p := .asterisk) h3) .pure)))
  | .noArgs i, ls, s, r, h, hr, hf => by
    simp only [extAttr] at h
    obtain ⟨w, h1, h1'⟩ := rl_name.1 (hr.rl h)
    have i1 := okIdent hE h1 h1'
    have ne := attrEnd_ko hE hf (.inr rfl)
    exact .next (.right i1 (.left (.left (attrEnd_ko hE hf (.inl rfl))))) <|
      .next (.right i1 (.left ne)) <| .next (.right i1 (.left ne)) <| .next (.right i1 (.left ne)) <|
      .next (.right i1 (.left ne)) <| .here (.bind i1 .pure)

theorem ok_extAttrs : ∀ (as : List ExtAttr) {s r r' : List σ},
    RL Step (sepBy comma (extAttrs as)) s r → Step r c!"]" r' →
    Elems ((G.punct .comma).run leaf (ntLim leaf)) (G.extAttr.run leaf (ntLim leaf)) s as r
  | [], s, r, r', h, _ => by simp only [extAttrs] at h; exact rl_eps.1 h
  | [m], s, r, r', h, h' => by
    simp only [extAttrs] at h
    obtain ⟨l, h1, h2⟩ := h
    exact ⟨r, ok_extAttr m h1 h2 (closer_stop hE (by decide) h'), .nil⟩
  | m :: m' :: ms, s, r, r', h, h' => by
    simp only [extAttrs] at h
    obtain ⟨m1, ⟨l, h1, h1'⟩, n, h2, h3⟩ := rl_sepBy.1 h
    have h2 := rl_tok.1 h2
    exact elems_cons hE (guarded_punct _) (ok_extAttr m h1 h1' (closer_stop hE (by decide) h2))
      (okPunct hE (p := .comma) h2) (by simp) (ok_extAttrs (m' :: ms) (by simp only [extAttrs]; exact h3) h')

theorem ok_attributes : ∀ (as : Option (List ExtAttr)) {ls : List Str} {s r : List σ}, attributes as ls →
    Reads Step s ls r → (as = none → NotNext Step r c!"[") → Ok leaf G.attrs s r as
  | none, ls, s, r, h, hr, hf => by
    simp only [attributes] at h
    cases rl_eps.1 (hr.rl h)
    exact .none (.left (koPunct_of hE (k := .openBracket) (hf rfl)))
  | some as, ls, s, r, h, hr, hf => by
    simp only [attributes] at h
    obtain ⟨m1, h1, m2, h2, h3⟩ := rl_brackets.1 (hr.rl h)
    exact .some (okBrackets hE h1 (okCommaList hE guarded_extAttr (ok_extAttrs as h2 h3)
      (koPunct hE (solid_punct (p := .closeBracket) (by decide) (by decide)) h3 (by decide))
      (dead_punct hE (p := .closeBracket) h3).extAttr) h3)

theorem ok_argument : ∀ (t : Argument) {ls : List Str} {s r : List σ}, argument t ls →
    Reads Step s ls r → StopAt Step r → Ok leaf G.argument s r t
  | .single as true (.mk as' t) i d, ls, s, r, h, hr, hf => by
    simp only [argument, if_true, namedAttributed] at h
    obtain ⟨m1, ⟨l1, h1, h1'⟩, h2⟩ := rl_seq.1 (hr.rl h)
    obtain ⟨m2, h2, h3⟩ := rl_seq.1 h2
    obtain ⟨m3, h3, h4⟩ := rl_seq.1 h3
    obtain ⟨m4, ⟨l5, h5, h5'⟩, ⟨l6, h6, h6'⟩⟩ := rl_seq.1 h3
    obtain ⟨a, w, m5, h7, h8, h9, h10, h11⟩ := named_split hE h6 h6'
    have h2 := rl_tok.1 h2
    exact .here (.bind (ok_attributes as h1 h1' fun _ => notBracket hE h2 (.inr ⟨_, word_kw .optional⟩))
      (.bind (.optKwT (okKw hE (k := .optional) h2))
      (.bind (.bind (ok_attributes as' h5 h5' fun _ => type_notBracket hE h7 h8)
        (.bind (ok_type t h7 h8 h9) .pure)) (.bind (okIdent hE h10 h11)
      (.bind (.variant (.variant (okDefault hE h4 hf))) .pure)))))
  | .single as false (.mk as' t) i d, ls, s, r, h, hr, hf => by
    simp only [argument, namedAttributed] at h
    obtain ⟨l1, l2, rfl, h1, h2⟩ := h
    simp only [Bool.false_eq_true, if_false] at h2
    obtain ⟨rfl, h2, h3⟩ := h2
    obtain ⟨m1, r1, r2⟩ := hr.split
    obtain ⟨l5, l6, rfl, h5, h6⟩ := h2
    obtain ⟨m2, r5, r6⟩ := r2.split
    obtain ⟨a, w, m5, h7, h8, h9, h10, h11⟩ := named_split hE h6 r6
    have hd : ∃ w ls', l5 ++ l6 = w :: ls' ∧ Solid w := by
      cases as' with
      | none =>
        simp only [attributes] at h5
        cases h5
        obtain ⟨a', b', rfl, h12, -⟩ := h6
        obtain ⟨w, ls', rfl, hw⟩ := solid_type_head hE h12
        exact ⟨w, _, rfl, hw⟩
      | some as' =>
        simp only [attributes] at h5
        obtain ⟨_, _, rfl, rfl, -⟩ := h5
        exact ⟨_, _, rfl, solid_punct (p := .openBracket) (by decide) (by decide)⟩
    obtain ⟨w', ls', hd, hw'⟩ := hd
    have no : NotNext Step m1 c!"optional" := avoid_notNext hE hd hw' (solid_kw .optional) r2
      (h3 _ (by split <;> simp))
    have nb : as = none → NotNext Step m1 c!"[" := by
      rintro rfl
      exact avoid_notNext hE hd hw' (solid_punct (p := .openBracket) (by decide) (by decide)) r2
        (h3 _ (by simp))
    exact .here (.bind (ok_attributes as h1 r1 nb)
      (.bind (.optKwF (koKw_of hE (k := .optional) no))
      (.bind (.bind (ok_attributes as' h5 r5 fun _ => type_notBracket hE h7 h8)
        (.bind (ok_type t h7 h8 h9) .pure)) (.bind (okIdent hE h10 h11)
      (.bind (.bind .pure .pure) .pure)))))
  | .variadic as t i, ls, s, r, h, hr, hf => by
    simp only [argument] at h
    obtain ⟨m1, ⟨l1, h1, h1'⟩, h2⟩ := rl_seq.1 (hr.rl h)
    obtain ⟨m2, ⟨l2, h2, h2'⟩, h3⟩ := rl_seq.1 h2
    obtain ⟨m3, h3, h4⟩ := rl_seq.1 h3
    obtain ⟨w, h4, h4'⟩ := rl_name.1 h4
    have h3 := rl_tok.1 h3
    have nb := type_notBracket hE h2 h2'
    have ha := ok_attributes as h1 h1' fun _ => nb
    have ht := ok_type t h2 h2' (tf_punct hE (p := .ellipsis) h3)
    have de := dead_punct hE (p := .ellipsis) h3
    refine .next (.right ha ?_) (.here (.bind ha (.bind ht (.bind (okPunct hE (p := .ellipsis) h3)
      (.bind (okIdent hE h4 h4') .pure)))))
    rcases hE.total _ (.kw .optional) m1 with ⟨m', ⟨⟩, ho⟩ | ho
    · obtain ⟨w, h5, h6⟩ := hE.ok ho
      cases h6
      refine .right (.optKwT ho) ?_
      rcases type_optional hE h2 h2' h5 with rfl | h6
      · exact .left de.attributedType
      · exact .left (dead_punct hE (p := .qMark) h6).attributedType
    · refine .right (.optKwF ho) (.right (.bind (.none (.left (koPunct_of hE (k := .openBracket) nb)))
        (.bind ht .pure)) (.left de.ident))

theorem ok_arguments : ∀ (as : List Argument) {s r r' : List σ},
    RL Step (sepBy comma (arguments as)) s r → Step r c!")" r' →
    Elems ((G.punct .comma).run leaf (ntLim leaf)) ((G.call .argument).run leaf (ntLim leaf)) s as r
  | [], s, r, r', h, _ => by simp only [arguments] at h; exact rl_eps.1 h
  | [m], s, r, r', h, h' => by
    simp only [arguments] at h
    obtain ⟨l, h1, h2⟩ := h
    exact ⟨r, okCall hE (ok_argument m h1 h2 (closer_stop hE (by decide) h')), .nil⟩
  | m :: m' :: ms, s, r, r', h, h' => by
    simp only [arguments] at h
    obtain ⟨m1, ⟨l, h1, h1'⟩, n, h2, h3⟩ := rl_sepBy.1 h
    have h2 := rl_tok.1 h2
    exact elems_cons hE (guarded_punct _) (okCall hE (ok_argument m h1 h1' (closer_stop hE (by decide) h2)))
      (okPunct hE (p := .comma) h2) (by simp) (ok_arguments (m' :: ms) (by simp only [arguments]; exact h3) h')

end

end

end Verif
