import Verif.Proof.Longest

/-!
# The longest prefix is taken: types, attributes and arguments
-/

namespace Verif.Longest
open Nom Spec

variable {α β : Type} {s m r : Str}

local notation "hE" => exact_char

theorem noJoin_null {ls l : List Str} {q : Bool} (hq : q = true) (h : optTok q c!"?" l) (hr : Reads CStep m l r) :
    NoJoin CStep ls m ∧ NotNext CStep m c!"<" := by
  subst hq
  cases h
  have h := reads_one.1 hr
  have hs := solid_punct (p := .qMark) (by decide) (by decide)
  exact ⟨noJoin_of_step hE hs h (by decide), notNext hE hs h (solid_punct (p := .lessThan) (by decide) (by decide)) (by decide)⟩

theorem far_longType {u : Bool} (h : RL CStep (integerType (.long u)) s r) : Far G.longType s r := by
  obtain ⟨m1, h1, h2⟩ : ∃ m1, RL CStep (optTok u c!"unsigned") s m1 ∧ CStep m1 c!"long" r := by
    simpa only [integerType, rl_seq, rl_tok] using h
  refine .ofOk (.bind (okOptKw hE (k := .unsigned) h1 ?_) (.bind (okKw hE (k := .long) h2) .pure))
  rintro rfl; cases rl_eps.1 h1; exact notNext_kw hE (k := .long) h2

theorem far_integer {t : IntegerType} {ls : List Str} (h : integerType t ls) (hr : Reads CStep s ls r) :
    Far G.integerType s r := by
  cases t with
  | long u =>
    rcases total (g := G.longLongType) (b := true) inferInstance s with ⟨r', a, h', -⟩ | h'
    · refine ⟨r', a, .here h', ?_⟩
      obtain ⟨m1, h1, h2⟩ : ∃ m1, RL CStep (optTok u c!"unsigned") s m1 ∧ CStep m1 c!"long" r := by
        simpa only [integerType, rl_seq, rl_tok] using hr.rl h
      have h3 : Okc (G.optKw .unsigned) s m1 u := okOptKw hE (k := .unsigned) h1
        (by rintro rfl; cases rl_eps.1 h1; exact notNext_kw hE (k := .long) h2)
      obtain ⟨n1, _, e1, h'⟩ := run_bind_ok.1 h'
      cases e1.symm.trans h3
      obtain ⟨n2, _, e2, h'⟩ := run_bind_ok.1 h'
      cases e2.symm.trans (okKw hE (k := .long) h2)
      obtain ⟨n3, _, e3, h'⟩ := run_bind_ok.1 h'
      rw [run_pure] at h'
      cases h'
      obtain ⟨_, e3, -⟩ := exact_char.ok e3
      exact reads_length (.one e3)
    · exact .next h' (.here (far_longType (hr.rl h)))
  | longLong u =>
    refine .ofOk (okInteger hE h hr fun w r' h1 h2 => ?_)
    obtain ⟨_, _, rfl, h', _, _, rfl, rfl, rfl⟩ := h
    cases u <;> cases h' <;> simp [twoWordTypes] at h2
  | short u =>
    refine .ofOk (okInteger hE h hr fun w r' h1 h2 => ?_)
    obtain ⟨_, _, rfl, h', rfl⟩ := h
    cases u <;> cases h' <;> simp [twoWordTypes] at h2

theorem far_integerType {t : IntegerType} {q : Bool} {ls : List Str} {f : IntegerType → Bool → α}
    (h : (integerType t ⨾ optTok q c!"?") ls) (hr : Reads CStep s ls r) : Far (G.mayBeNull f G.integerType) s r := by
  obtain ⟨a, b, rfl, h1, h2⟩ := h
  obtain ⟨m, h3, h4⟩ := hr.split
  exact far_null' ⟨b, h2, h4⟩ (fun hq => ⟨t, okInteger hE h1 h3 (noJoin_null hq h2 h4).1⟩) fun _ => far_integer h1 h3

theorem far_floatingType {t : FloatingPointType} {q : Bool} {ls : List Str} {f : FloatingPointType → Bool → α}
    (h : (floatingPointType t ⨾ optTok q c!"?") ls) (hr : Reads CStep s ls r) :
    Far (G.mayBeNull f G.floatingPointType) s r := by
  obtain ⟨a, b, rfl, h1, h2⟩ := h
  obtain ⟨m, h3, h4⟩ := hr.split
  exact far_null (okFloating hE h1 h3) ⟨b, h2, h4⟩

theorem far_sequence {h' : G NonAnyType} {k : Kw} (h : CStep s k.text m)
    (hk : k = .sequence ∧ h' = G.mayBeNull .sequence G.sequenceType ∨
      k = .frozenArray ∧ h' = G.mayBeNull .frozenArray G.frozenArrayType ∨
      k = .record ∧ h' = G.mayBeNull (fun kv q => .record kv.1 kv.2 q) G.recordType ∨
      ∃ b, k = G.builtinKw b ∧ h' = G.builtin b)
    (hg : Far h' s r) : Far G.nonAnyType s r := by
  obtain ⟨r', a, h1, h2⟩ := hg
  exact ⟨r', a, okSequence hE h hk h1, h2⟩

theorem nonAny_solid (t : NonAnyType) (ls : List Str) (h : nonAnyType t ls) : ∃ w ls', ls = w :: ls' ∧ Solid w := by
  obtain ⟨i, w, ls', rfl, h'⟩ := nonAnyType_head h
  exact ⟨w, ls', rfl, .inl ⟨i, h'⟩⟩

theorem guarded_nonAny : Guarded true G.nonAnyType true := inferInstance
theorem guarded_identNull : Guarded true (G.mayBeNull NonAnyType.identifier G.ident) true := inferInstance

theorem ident_mem : G.mayBeNull NonAnyType.identifier G.ident ∈ [
    G.promiseType, G.mayBeNull .integer G.integerType, G.mayBeNull .floatingPoint G.floatingPointType,
    G.mayBeNull NonAnyType.identifier G.ident] := by simp

/-- A type name. -/
theorem far_typeName {i w : Str} {q : Bool} (hw : name i [w]) (h : CStep s w m) (hn : w ∉ typeWords)
    (hq : RL CStep (optTok q c!"?") m r) : Far G.nonAnyType s r := by
  have hs : Solid w := .inl ⟨i, hw⟩
  cases q with
  | true =>
    obtain ⟨l, hl, hr⟩ := hq
    have h1 := (noJoin_null (ls := [w]) rfl hl hr).1
    have h2 := (noJoin_null (ls := [w]) rfl hl hr).2
    have nj : ∀ {k : Kw} {w' : Str}, [k.text, w'] ∈ twoWordTypes → w = k.text → NotNext CStep m w' := by
      rintro k w' h4 rfl r' h5
      exact h1 w' r' h5 h4
    have nw : ∀ w' ∈ typeWords, w ≠ w' := by rintro w' h1 rfl; exact hn h1
    have ok : Okc (G.mayBeNull NonAnyType.identifier G.ident) s r (.identifier i true) :=
      .bind (okIdent hE hw h) (.bind (.optPunctT (okPunct hE (p := .qMark) (rl_tok.1 ⟨l, hl, hr⟩))) .pure)
    exact .ofOk <| okNonAnySelect ok (.inl rfl)
      (koGeneric hE hs h fun _ => h2)
      (koInteger hE hs h (nw _ (by decide)) (nw _ (by decide)) fun e =>
        ⟨nj (k := .unsigned) (by decide) e, nj (k := .unsigned) (by decide) e⟩)
      (koFloating hE hs h (nw _ (by decide)) (nw _ (by decide)) fun e =>
        ⟨nj (k := .unrestricted) (by decide) e, nj (k := .unrestricted) (by decide) e⟩)
      (fun b => .inr (koBuiltin hE hs h (nw _ (builtin_typeWord b))))
      (.inr (koGeneric' hE hs h fun _ => h2)) (.inr (koGeneric' hE hs h fun _ => h2))
      (.inr (koGeneric' hE hs h fun _ => h2))
  | false =>
    cases rl_eps.1 hq
    obtain ⟨r', a, h1, -⟩ := (Far.ofOk (okIdent hE hw h)).null (f := NonAnyType.identifier)
    refine far_one part_nonAnyType.snd nonAny_solid hs h
      (alts_ok (g := G.mayBeNull NonAnyType.identifier G.ident) ?_ guarded_nonAny guarded_identNull h1)
    simp

theorem far_nonAnyType (t : NonAnyType) {ls : List Str} (h : nonAnyType t ls) (hr : Reads CStep s ls r) :
    Far G.nonAnyType s r := by
  cases t with
  | promise t =>
    refine .here ?_
    simp only [nonAnyType] at h
    obtain ⟨n, h1, h2⟩ := rl_seq.1 (hr.rl h)
    obtain ⟨m1, h3, m2, ⟨l, h4, h4'⟩, h5⟩ := rl_angles.1 h2
    exact .ofOk <| .bind (okKw hE (k := .promise) (rl_tok.1 h1)) (.bind (okAngles hE h3
      (ok_returnType hE _ h4 h4' (tf_punct hE (p := .greaterThan) h5)) h5) .pure)
  | integer t q =>
    simp only [nonAnyType] at h
    obtain ⟨k, ls', hl, hk⟩ := integer_head hE h
    have hr' := hr
    rw [hl] at hr'
    cases hr' with
    | cons h1 h2 =>
      refine .next (koGeneric hE (solid_kw k) h1 fun e => ?_) (.here (far_integerType h hr))
      exfalso
      have := kw_inj e
      subst this
      revert hk; decide
  | floatingPoint t q =>
    simp only [nonAnyType] at h
    obtain ⟨k, ls', hl, hk⟩ := floating_head hE h
    have hr' := hr
    rw [hl] at hr'
    have ne : ∀ {k'}, k ≠ k' → k.text ≠ k'.text := fun h h' => h (kw_inj h')
    cases hr' with
    | cons h1 h2 =>
      have n : ∀ k', k' ∉ [Kw.unrestricted, .float, .double] → k ≠ k' := by
        rintro k' h' rfl; exact h' hk
      exact .next (koGeneric hE (solid_kw k) h1 fun e => absurd (kw_inj e) (n _ (by decide)))
        (.next (.mayBeNull (koInteger hE (solid_kw k) h1 (ne (k' := .long) (n _ (by decide)))
          (ne (k' := .short) (n _ (by decide))) fun e => absurd (kw_inj (k' := .unsigned) e) (n _ (by decide))))
        (.here (far_floatingType h hr)))
  | builtin b q =>
    simp only [nonAnyType, builtin_kw hE] at h
    obtain ⟨n, h1, h2⟩ := rl_seq.1 (hr.rl h)
    have h1 := rl_tok.1 h1
    exact far_sequence h1 (.inr (.inr (.inr ⟨b, rfl, rfl⟩))) (far_null (okKwAs hE h1) h2)
  | sequence t q =>
    simp only [nonAnyType] at h
    obtain ⟨n, h1, h2⟩ := rl_seq.1 (hr.rl h)
    obtain ⟨m0, h1, h1'⟩ := rl_seq.1 h1
    obtain ⟨m1, h3, m2, ⟨l, h4, h4'⟩, h5⟩ := rl_angles.1 h1'
    have h1 := rl_tok.1 h1
    exact far_sequence (k := .sequence) h1 (.inl ⟨rfl, rfl⟩) (far_null
      (.bind (okKw hE (k := .sequence) h1) (okAngles hE h3 (okCall hE
        (ok_type hE t h4 h4' (tf_punct hE (p := .greaterThan) h5))) h5)) h2)
  | frozenArray t q =>
    simp only [nonAnyType] at h
    obtain ⟨n, h1, h2⟩ := rl_seq.1 (hr.rl h)
    obtain ⟨m0, h1, h1'⟩ := rl_seq.1 h1
    obtain ⟨m1, h3, m2, ⟨l, h4, h4'⟩, h5⟩ := rl_angles.1 h1'
    have h1 := rl_tok.1 h1
    exact far_sequence (k := .frozenArray) h1 (.inr (.inl ⟨rfl, rfl⟩)) (far_null
      (.bind (okKw hE (k := .frozenArray) h1) (okAngles hE h3 (okCall hE
        (ok_type hE t h4 h4' (tf_punct hE (p := .greaterThan) h5))) h5)) h2)
  | record k t q =>
    simp only [nonAnyType] at h
    obtain ⟨n, h1, h2⟩ := rl_seq.1 (hr.rl h)
    obtain ⟨m0, h1, h1'⟩ := rl_seq.1 h1
    obtain ⟨m1, h3, m2, h4, h5⟩ := rl_angles.1 h1'
    obtain ⟨m3, ⟨l, h6, h6'⟩, h7⟩ := rl_seq.1 h4
    obtain ⟨m4, h7, ⟨l', h8, h8'⟩⟩ := rl_seq.1 h7
    have h1 := rl_tok.1 h1
    have h7 := rl_tok.1 h7
    exact far_sequence (k := .record) h1 (.inr (.inr (.inl ⟨rfl, rfl⟩))) (far_null
      (f := fun kv q => NonAnyType.record kv.1 kv.2 q) (a := (k, t))
      (.bind (okKw hE (k := .record) h1) (okAngles hE h3 (.bind
        (ok_recordKeyType hE k h6 h6' (tf_punct hE (p := .comma) h7))
        (.bind (okPunct hE (p := .comma) h7) (.bind (f := fun v => pure (k, v)) (okCall hE (N := .type)
        (ok_type hE t h8 h8' (tf_punct hE (p := .greaterThan) h5))) .pure))) h5)) h2)
  | identifier i q =>
    simp only [nonAnyType] at h
    obtain ⟨a, b, rfl, ⟨h1, h2⟩, h3⟩ := h
    obtain ⟨m, h4, h5⟩ := hr.split
    obtain ⟨w, rfl, hw, hn⟩ : ∃ w, a = [w] ∧ name i [w] ∧ w ∉ typeWords := by
      rcases h2 with ⟨rfl, h2⟩ | rfl
      · exact ⟨_, rfl, ⟨h1, .inl rfl⟩, h2⟩
      · exact ⟨_, rfl, ⟨h1, .inr rfl⟩, fun h => typeWord_kw _ h _ rfl⟩
    exact far_typeName hw (reads_one.1 h4) hn ⟨b, h3, h5⟩

theorem ok_unionBody {ms : List UnionMember} (h : RL CStep (parens (sepBy (tok c!"or") (unionMembers ms))) s r) :
    Okc G.unionType s r ms := by
  obtain ⟨m1, h3, m2, h4, h5⟩ := rl_parens.1 h
  exact okParens hE h3 (okSepList hE (guarded_call _) (guarded_kw _)
    (ok_unionMembers hE ms h4 h5) (koKw hE (solid_punct (p := .closeParen) (by decide) (by decide)) h5
      (by decide)) (koCall hE (dead_punct hE (p := .closeParen) h5).unionMember)) h5

theorem far_singleType (t : SingleType) {ls : List Str} (h : singleType t ls) (hr : Reads CStep s ls r) :
    Far G.singleType s r := by
  cases t with
  | any =>
    simp only [singleType] at h
    cases h
    exact .ofOk (.here (okKwAs hE (k := .any) (reads_one.1 hr)))
  | nonAny t =>
    simp only [singleType] at h
    obtain ⟨h1, h2⟩ := h
    obtain ⟨i, w, ls', hl, h3⟩ := nonAnyType_head h1
    have h4 := avoid_notNext hE hl (.inl ⟨i, h3⟩) (solid_kw .any) hr (h2 _ (by simp [Kw.text]))
    exact .next (.kwAs (koKw_of hE (k := .any) h4)) (.here (far_nonAnyType t h1 hr).variant)

theorem far_type (t : Ty) {ls : List Str} (h : type t ls) (hr : Reads CStep s ls r) : Far G.type s r := by
  cases t with
  | single t =>
    simp only [type] at h
    exact .here (far_singleType t h hr).variant
  | union ms q =>
    simp only [type] at h
    obtain ⟨n, h1, h2⟩ := rl_seq.1 (hr.rl h)
    obtain ⟨m1, h3, -⟩ := rl_parens.1 h1
    exact .next (.variant (dull_punct hE (p := .openParen) h3).singleType) <| .here (far_null (ok_unionBody h1) h2)

theorem far_recordKeyType (t : RecordKeyType) {ls : List Str} (h : recordKeyType t ls) (hr : Reads CStep s ls r) :
    Far G.recordKeyType s r := by
  cases t with
  | byte =>
    simp only [recordKeyType] at h
    exact .ofOk (.here (okKwAs hE (k := .byteString) (rl_tok.1 (hr.rl h))))
  | dom =>
    simp only [recordKeyType] at h
    have h := rl_tok.1 (hr.rl h)
    exact .ofOk (.next (.kwAs (koKw' hE (k := .domString) h)) (.here (okKwAs hE (k := .domString) h)))
  | usv =>
    simp only [recordKeyType] at h
    have h := rl_tok.1 (hr.rl h)
    exact .ofOk (.next (.kwAs (koKw' hE (k := .usvString) h)) (.next (.kwAs (koKw' hE (k := .usvString) h))
      (.here (okKwAs hE (k := .usvString) h))))
  | nonAny t =>
    simp only [recordKeyType] at h
    obtain ⟨h1, h2⟩ := h
    obtain ⟨i, w, ls', hl, h3⟩ := nonAnyType_head h1
    have k : ∀ k : Kw, [k.text] ∈ [[c!"ByteString"], [c!"DOMString"], [c!"USVString"]] → Koc (G.kw k) s :=
      fun k hk => koKw_of hE (avoid_notNext hE hl (.inl ⟨i, h3⟩) (solid_kw k) hr (h2 _ hk))
    exact .next (.kwAs (k .byteString (by decide))) (.next (.kwAs (k .domString (by decide)))
      (.next (.kwAs (k .usvString (by decide))) (.here (Far.call (N := .nonAny) (far_nonAnyType t h1 hr)).variant)))

theorem far_attributedNonAny {as : Option (List ExtAttr)} {t : NonAnyType} {ls : List Str}
    (h : unionMember (.single as t) ls) (hr : Reads CStep s ls r) : Far G.attributedNonAnyType s r := by
  simp only [unionMember] at h
  obtain ⟨a, b, rfl, h1, h2⟩ := h
  obtain ⟨m, h3, h4⟩ := hr.split
  exact .bind (ok_attributes hE as h1 h3 fun _ => nonAny_notBracket hE h2 h4) (far_nonAnyType t h2 h4).last

theorem far_unionMember (t : UnionMember) {ls : List Str} (h : unionMember t ls) (hr : Reads CStep s ls r) :
    Far G.unionMemberType s r := by
  cases t with
  | single as t => exact .here (far_attributedNonAny h hr)
  | union ms q =>
    simp only [unionMember] at h
    obtain ⟨n, h1, h2⟩ := rl_seq.1 (hr.rl h)
    obtain ⟨m1, h3, -⟩ := rl_parens.1 h1
    have h6 := dull_punct hE (p := .openParen) h3
    exact .next (.right h6.attrs (.left h6.nonAnyType)) <| .here (far_null (ok_unionBody h1) h2)

theorem far_returnType (t : ReturnType) {ls : List Str} (h : returnType t ls) (hr : Reads CStep s ls r) :
    Far G.returnType s r := by
  cases t with
  | undefined =>
    simp only [returnType] at h
    exact .ofOk (.here (okKwAs hE (k := .undefined) (rl_tok.1 (hr.rl h))))
  | type t =>
    simp only [returnType] at h
    obtain ⟨h1, h2⟩ := h
    obtain ⟨w, ls', hl, h3⟩ := solid_type_head hE h1
    have h4 := avoid_notNext hE hl h3 (solid_kw .undefined) hr (h2 _ (by simp [Kw.text]))
    exact .next (.kwAs (koKw_of hE (k := .undefined) h4)) (.here (far_type t h1 hr).variant)

theorem far_attributedType (t : AttributedType) {ls : List Str} (h : attributedType t ls) (hr : Reads CStep s ls r) :
    Far G.attributedType s r := by
  obtain ⟨as, t⟩ := t
  simp only [attributedType] at h
  obtain ⟨m, ⟨l, h1, h1'⟩, ⟨l', h2, h2'⟩⟩ := rl_seq.1 (hr.rl h)
  exact .bind (ok_attributes hE as h1 h1' fun _ => type_notBracket hE h2 h2') (far_type t h2 h2').last

/-! ## Types of constants -/

theorem constType_head {t : ConstType} {ls : List Str} (h : constType t ls) : ∃ w ls', ls = w :: ls' ∧ Solid w := by
  cases t with
  | integer t q =>
    obtain ⟨k, ls', rfl, -⟩ := integer_head hE h
    exact ⟨_, _, rfl, solid_kw k⟩
  | floatingPoint t q =>
    obtain ⟨k, ls', rfl, -⟩ := floating_head hE h
    exact ⟨_, _, rfl, solid_kw k⟩
  | boolean q => obtain ⟨_, _, rfl, rfl, -⟩ := h; exact ⟨_, _, rfl, solid_kw .boolean⟩
  | byte q => obtain ⟨_, _, rfl, rfl, -⟩ := h; exact ⟨_, _, rfl, solid_kw .byte⟩
  | octet q => obtain ⟨_, _, rfl, rfl, -⟩ := h; exact ⟨_, _, rfl, solid_kw .octet⟩
  | identifier i q =>
    obtain ⟨a, b, rfl, ⟨h1, h2⟩, h3⟩ := h
    rcases h2 with ⟨rfl, h2⟩ | rfl
    · exact ⟨_, _, rfl, .inl ⟨i, h1, .inl rfl⟩⟩
    · exact ⟨_, _, rfl, .inl ⟨i, h1, .inr rfl⟩⟩

theorem guarded_const : Guarded true G.constType true := inferInstance
theorem guarded_constNull : Guarded true (G.mayBeNull ConstType.identifier G.ident) true := inferInstance

theorem far_constType {t : ConstType} {ls : List Str} (h : constType t ls) (hr : Reads CStep s ls r) :
    Far G.constType s r := by
  have kw : ∀ (k : Kw) (q : Bool), RL CStep (tok k.text ⨾ optTok q c!"?") s r →
      ∃ n, CStep s k.text n ∧ RL CStep (optTok q c!"?") n r := by
    intro k q h
    obtain ⟨n, h1, h2⟩ := rl_seq.1 h
    exact ⟨n, rl_tok.1 h1, h2⟩
  have ki : ∀ {k : Kw} {n}, CStep s k.text n → k ∉ [Kw.unsigned, .long, .short] → Koc G.integerType s :=
    fun h h' => .integerType (koKw' hE h (by rintro rfl; simp at h')) (koKw' hE h (by rintro rfl; simp at h'))
      (koKw' hE h (by rintro rfl; simp at h'))
  have kf : ∀ {k : Kw} {n}, CStep s k.text n → k ∉ [Kw.unrestricted, .float, .double] →
      Koc G.floatingPointType s :=
    fun h h' => .floatingPointType (koKw' hE h (by rintro rfl; simp at h'))
      (koKw' hE h (by rintro rfl; simp at h')) (koKw' hE h (by rintro rfl; simp at h'))
  cases t with
  | integer t q => exact .here (far_integerType h hr)
  | floatingPoint t q =>
    obtain ⟨k, ls', hl, hk⟩ := floating_head hE h
    have hr' := hr
    rw [hl] at hr'
    cases hr' with
    | cons h1 h2 =>
      refine .next (.mayBeNull (ki h1 ?_)) (.here (far_floatingType h hr))
      simp at hk
      rcases hk with rfl | rfl | rfl <;> decide
  | boolean q =>
    obtain ⟨n, h1, h2⟩ := kw .boolean q (hr.rl h)
    exact .next (.mayBeNull (ki h1 (by decide))) <| .next (.mayBeNull (kf h1 (by decide))) <|
      .here (far_null (f := fun _ q => ConstType.boolean q) (okKw hE h1) h2)
  | byte q =>
    obtain ⟨n, h1, h2⟩ := kw .byte q (hr.rl h)
    exact .next (.mayBeNull (ki h1 (by decide))) <| .next (.mayBeNull (kf h1 (by decide))) <|
      .next (.mayBeNull (koKw' hE h1)) <|
      .here (far_null (f := fun _ q => ConstType.byte q) (okKw hE h1) h2)
  | octet q =>
    obtain ⟨n, h1, h2⟩ := kw .octet q (hr.rl h)
    exact .next (.mayBeNull (ki h1 (by decide))) <| .next (.mayBeNull (kf h1 (by decide))) <|
      .next (.mayBeNull (koKw' hE h1)) <| .next (.mayBeNull (koKw' hE h1)) <|
      .here (far_null (f := fun _ q => ConstType.octet q) (okKw hE h1) h2)
  | identifier i q =>
    cases q with
    | true =>
      obtain ⟨a, b, rfl, h1, h3⟩ := h
      cases h3
      obtain ⟨m, h4, h5⟩ := hr.split
      have h5 := reads_one.1 h5
      have nj : NoJoin CStep a m := noJoin_of_step hE (solid_punct (p := .qMark) (by decide) (by decide)) h5 (by decide)
      obtain ⟨hw, h2⟩ := h1
      have nk : ∀ w ∈ [c!"long", c!"short", c!"float", c!"double", c!"boolean", c!"byte", c!"octet"],
          ∀ v, w ≠ '_' :: v := by
        intro w hw v
        simp at hw
        rintro rfl
        simp at hw
      obtain ⟨w, rfl, hw, hn⟩ : ∃ w, a = [w] ∧ name i [w] ∧
          w ∉ [c!"long", c!"short", c!"float", c!"double", c!"boolean", c!"byte", c!"octet"] := by
        rcases h2 with ⟨rfl, h2⟩ | rfl
        · exact ⟨_, rfl, ⟨hw, .inl rfl⟩, h2⟩
        · exact ⟨_, rfl, ⟨hw, .inr rfl⟩, fun h => nk _ h _ rfl⟩
      have h4 := reads_one.1 h4
      have hs : Solid w := .inl ⟨i, hw⟩
      have nj : ∀ {k : Kw} {w' : Str}, [k.text, w'] ∈ twoWordTypes → w = k.text → NotNext CStep m w' := by
        rintro k w' h7 rfl r' h8
        exact nj w' r' h8 (by simpa using h7)
      simp only [List.mem_cons, not_or] at hn
      obtain ⟨n1, n2, n3, n4, n5, n6, n7, -⟩ := hn
      exact .ofOk <| .next (.mayBeNull (koInteger hE hs h4 n1 n2 fun e =>
          ⟨nj (k := .unsigned) (by decide) e, nj (k := .unsigned) (by decide) e⟩)) <|
        .next (.mayBeNull (koFloating hE hs h4 n3 n4 fun e =>
          ⟨nj (k := .unrestricted) (by decide) e, nj (k := .unrestricted) (by decide) e⟩)) <|
        .next (.mayBeNull (koKw hE hs h4 n5)) <| .next (.mayBeNull (koKw hE hs h4 n6)) <|
        .next (.mayBeNull (koKw hE hs h4 n7)) <|
        .here (.bind (okIdent hE hw h4) (.bind (.optPunctT (okPunct hE (p := .qMark) h5)) .pure))
    | false =>
      obtain ⟨a, b, rfl, ⟨h1, h2⟩, h3⟩ := h
      cases h3
      obtain ⟨w, rfl, hw⟩ : ∃ w, a = [w] ∧ name i [w] := by
        rcases h2 with ⟨rfl, h2⟩ | rfl
        · exact ⟨_, rfl, h1, .inl rfl⟩
        · exact ⟨_, rfl, h1, .inr rfl⟩
      have h4 := reads_one.1 hr
      obtain ⟨r', a, h1, -⟩ := (Far.ofOk (okIdent hE hw h4)).null (f := ConstType.identifier)
      refine far_one part_constType.snd (fun _ _ => constType_head) (.inl ⟨i, hw⟩) h4
        (alts_ok (g := G.mayBeNull ConstType.identifier G.ident) ?_ guarded_const guarded_constNull h1)
      simp

/-! ## Attributes -/

theorem extAttr_head (t : ExtAttr) (ls : List Str) (h : extAttr t ls) : ∃ w ls', ls = w :: ls' ∧ Solid w := by
  have k : ∀ {i : Str} {B : Lang}, (name i ⨾ B) ls → ∃ w ls', ls = w :: ls' ∧ Solid w := by
    rintro i B ⟨a, b, rfl, h1, -⟩
    obtain ⟨w, rfl, h2⟩ := name_single h1
    exact ⟨w, _, rfl, .inl ⟨i, h2⟩⟩
  cases t with
  | noArgs i =>
    simp only [extAttr] at h
    obtain ⟨w, rfl, h2⟩ := name_single h
    exact ⟨w, _, rfl, .inl ⟨i, h2⟩⟩
  | _ => simp only [extAttr] at h; exact k h

theorem ok_args {args : List Argument} (h : RL CStep (parens (sepBy comma (arguments args))) s r) :
    Okc (G.parenthesized G.argumentList) s r args := by
  obtain ⟨m2, h3, m3, h4, h5⟩ := rl_parens.1 h
  exact okParens hE h3 (okCommaList hE (guarded_call _)
      (ok_arguments hE args h4 h5) (koPunct hE (solid_punct (p := .closeParen) (by decide) (by decide)) h5
        (by decide)) (koCall hE (dead_punct hE (p := .closeParen) h5).argument)) h5

theorem ok_names {is : List Str} (h : RL CStep (parens (sepBy comma (is.map name))) s r) :
    Okc (G.parenthesized G.identifierList) s r is := by
  obtain ⟨m4, h4, m5, h5, h6⟩ := rl_parens.1 h
  exact okParens hE h4 (okCommaList hE guarded_ident
      (okNames hE h5 h6) (koPunct hE (solid_punct (p := .closeParen) (by decide) (by decide)) h6
        (by decide)) (dead_punct hE (p := .closeParen) h6).ident) h6

theorem ok_idOrString {v : IdentifierOrString} (h : RL CStep (identifierOrString v) s r) : Okc G.identifierOrString s r v := by
  cases v with
  | identifier i =>
    obtain ⟨w, h1, h2⟩ := rl_name.1 h
    exact .here (.variant (okIdent hE h1 h2))
  | string v =>
    obtain ⟨h1, h2⟩ := rl_string.1 h
    exact .next (.variant (koIdent hE (.inr (.inr (.inl ⟨v, h1, rfl⟩))) h2
      fun i h => string_not_wordy (.inl ⟨i, h⟩))) (.here (.variant (okString hE h1 h2)))

/-- The alternative for an attribute. -/
def extOf : ExtAttr → G ExtAttr
  | .argList .. => G.extAttrArgList
  | .namedArgList .. => G.extAttrNamedArgList
  | .identList .. => G.extAttrIdentList
  | .ident .. => G.extAttrIdent
  | .wildcard .. => G.extAttrWildcard
  | .noArgs .. => G.extAttrNoArgs

theorem ok_extOf (t : ExtAttr) {ls : List Str} (h : extAttr t ls) (hr : Reads CStep s ls r) : Okc (extOf t) s r t := by
  have h := hr.rl h
  cases t with
  | argList i args =>
    simp only [extAttr] at h
    obtain ⟨m1, h1, h2⟩ := rl_seq.1 h
    obtain ⟨w, h1, h1'⟩ := rl_name.1 h1
    exact .bind (okIdent hE h1 h1') (.bind (ok_args h2) .pure)
  | namedArgList i j args =>
    simp only [extAttr] at h
    obtain ⟨m1, h1, h2⟩ := rl_seq.1 h
    obtain ⟨m2, h2, h3⟩ := rl_seq.1 h2
    obtain ⟨m3, h3, h4⟩ := rl_seq.1 h3
    obtain ⟨w, h1, h1'⟩ := rl_name.1 h1
    obtain ⟨w', h3, h3'⟩ := rl_name.1 h3
    exact .bind (okIdent hE h1 h1') (.bind (okPunct hE (p := .assign) (rl_tok.1 h2)) (.bind (okIdent hE h3 h3')
      (.bind (ok_args h4) .pure)))
  | identList i is =>
    simp only [extAttr] at h
    obtain ⟨m1, h1, h2⟩ := rl_seq.1 h
    obtain ⟨m2, h2, h3⟩ := rl_seq.1 h2
    obtain ⟨w, h1, h1'⟩ := rl_name.1 h1
    exact .bind (okIdent hE h1 h1') (.bind (okPunct hE (p := .assign) (rl_tok.1 h2)) (.bind (ok_names h3) .pure))
  | ident i v =>
    simp only [extAttr] at h
    obtain ⟨m1, h1, h2⟩ := rl_seq.1 h
    obtain ⟨m2, h2, h3⟩ := rl_seq.1 h2
    obtain ⟨w, h1, h1'⟩ := rl_name.1 h1
    exact .bind (okIdent hE h1 h1') (.bind (okPunct hE (p := .assign) (rl_tok.1 h2)) (.bind (ok_idOrString h3) .pure))
  | wildcard i =>
    simp only [extAttr] at h
    obtain ⟨m1, h1, h2⟩ := rl_seq.1 h
    obtain ⟨m2, h2, h3⟩ := rl_seq.1 h2
    obtain ⟨w, h1, h1'⟩ := rl_name.1 h1
    exact .bind (okIdent hE h1 h1') (.bind (okPunct hE (p := .assign) (rl_tok.1 h2))
      (.bind (okPunct hE (p := .asterisk) (rl_tok.1 h3)) .pure))
  | noArgs i =>
    simp only [extAttr] at h
    obtain ⟨w, h1, h1'⟩ := rl_name.1 h
    exact .bind (okIdent hE h1 h1') .pure

theorem guarded_parenArgs : Guarded true (G.parenthesized G.argumentList) true := inferInstance
theorem guarded_noArgs : Guarded true G.extAttrNoArgs true := inferInstance

theorem far_extAttr (t : ExtAttr) {ls : List Str} (h : extAttr t ls) (hr : Reads CStep s ls r) : Far G.extAttr s r := by
  have ho := ok_extOf t h hr
  have h0 := h
  have hr0 := hr
  replace h := hr.rl h
  have sa := solid_punct (p := .assign) (by decide) (by decide)
  cases t with
  | argList i args => exact .ofOk (.here ho)
  | namedArgList i j args =>
    simp only [extAttr] at h
    obtain ⟨m1, h1, h2⟩ := rl_seq.1 h
    obtain ⟨m2, h2, h3⟩ := rl_seq.1 h2
    obtain ⟨w, h1, h1'⟩ := rl_name.1 h1
    exact .ofOk (.next (.right (okIdent hE h1 h1') (.left (.left (koPunct hE sa (rl_tok.1 h2) (by decide))))) (.here ho))
  | identList i is =>
    simp only [extAttr] at h
    obtain ⟨m1, h1, h2⟩ := rl_seq.1 h
    obtain ⟨m2, h2, h3⟩ := rl_seq.1 h2
    obtain ⟨w, h1, h1'⟩ := rl_name.1 h1
    obtain ⟨m4, h4, -⟩ := rl_parens.1 h3
    have h2 := rl_tok.1 h2
    have i1 := okIdent hE h1 h1'
    have eq := okPunct hE (p := .assign) h2
    exact .ofOk <| .next (.right i1 (.left (.left (koPunct hE sa h2 (by decide))))) <|
      .next (.right i1 (.right eq (.left (dull_punct hE (p := .openParen) h4).ident))) <| .here ho
  | ident i v =>
    cases v with
    | identifier j =>
      simp only [extAttr, identifierOrString] at h
      obtain ⟨m1, h1, h2⟩ := rl_seq.1 h
      obtain ⟨m2, h2, h3⟩ := rl_seq.1 h2
      obtain ⟨w, h1, h1'⟩ := rl_name.1 h1
      obtain ⟨w', h3, h3'⟩ := rl_name.1 h3
      have h2 := rl_tok.1 h2
      have i1 := okIdent hE h1 h1'
      have i2 := okIdent hE h3 h3'
      have eq := okPunct hE (p := .assign) h2
      have np : Koc (G.punct .openParen) m2 := koPunct hE (.inl ⟨j, h3⟩) h3'
        (by rintro rfl; exact name_ne_punct (p := .openParen) h3)
      refine .next (.right i1 (.left (.left (koPunct hE sa h2 (by decide))))) ?_
      rcases total guarded_parenArgs r with ⟨r', args, h4, hl⟩ | h4
      · exact .here ⟨r', _, .bind i1 (.bind eq (.bind i2 (.bind h4 .pure))), hl⟩
      · exact .ofOk <| .next (.right i1 (.right eq (.right i2 (.left h4)))) <|
          .next (.right i1 (.right eq (.left (.left np)))) <| .here ho
    | string v =>
      simp only [extAttr, identifierOrString] at h
      obtain ⟨m1, h1, h2⟩ := rl_seq.1 h
      obtain ⟨m2, h2, h3⟩ := rl_seq.1 h2
      obtain ⟨w, h1, h1'⟩ := rl_name.1 h1
      obtain ⟨hv, h3⟩ := rl_string.1 h3
      have h2 := rl_tok.1 h2
      have i1 := okIdent hE h1 h1'
      have eq := okPunct hE (p := .assign) h2
      have sv : Solid ('"' :: v ++ ['"']) := .inr (.inr (.inl ⟨v, hv, rfl⟩))
      have np : Koc (G.punct .openParen) m2 := koPunct hE sv h3 (by simp [Punct.text])
      have ni : Koc G.ident m2 := koIdent hE sv h3
        fun i h => string_not_wordy (.inl ⟨i, h⟩)
      exact .ofOk <| .next (.right i1 (.left (.left (koPunct hE sa h2 (by decide))))) <|
        .next (.right i1 (.right eq (.left ni))) <|
        .next (.right i1 (.right eq (.left (.left np)))) <| .here ho
  | wildcard i =>
    simp only [extAttr] at h
    obtain ⟨m1, h1, h2⟩ := rl_seq.1 h
    obtain ⟨m2, h2, h3⟩ := rl_seq.1 h2
    obtain ⟨w, h1, h1'⟩ := rl_name.1 h1
    have h2 := rl_tok.1 h2
    have h3 := rl_tok.1 h3
    have i1 := okIdent hE h1 h1'
    have eq := okPunct hE (p := .assign) h2
    have sv : Solid c!"*" := solid_punct (p := .asterisk) (by decide) (by decide)
    have np : Koc (G.punct .openParen) m2 := koPunct hE sv h3 (by decide)
    have ni : Koc G.ident m2 := (dead_punct hE (p := .asterisk) h3).ident
    have ns : Koc G.stringLit m2 := koStringLit hE sv h3 fun v hv => by simpa using hv.2
    exact .ofOk <| .next (.right i1 (.left (.left (koPunct hE sa h2 (by decide))))) <|
      .next (.right i1 (.right eq (.left ni))) <|
      .next (.right i1 (.right eq (.left (.left np)))) <|
      .next (.right i1 (.right eq (.left (.altsCons (.variant ni) (.altsCons (.variant ns) .altsNil))))) <| .here ho
  | noArgs i =>
    simp only [extAttr] at h
    obtain ⟨w, h1, h1'⟩ := rl_name.1 h
    refine far_one part_extAttr.snd extAttr_head (.inl ⟨i, h1⟩) h1'
      (alts_ok (g := G.extAttrNoArgs) ?_ guarded_extAttr guarded_noArgs ho)
    simp

/-! ## Arguments -/

theorem far_singleArgument {as : Attrs} {o : Bool} {t : AttributedType} {i : Str} {d : Option DefaultValue} {ls : List Str}
    (h : argument (.single as o t i d) ls) (hr : Reads CStep s ls r) : Far G.singleArgument s r := by
  obtain ⟨as', t⟩ := t
  cases o with
  | true =>
    simp only [argument, if_true, namedAttributed] at h
    obtain ⟨m1, ⟨l1, h1, h1'⟩, h2⟩ := rl_seq.1 (hr.rl h)
    obtain ⟨m2, h2, h3⟩ := rl_seq.1 h2
    obtain ⟨m3, h3, h4⟩ := rl_seq.1 h3
    obtain ⟨m4, ⟨l5, h5, h5'⟩, ⟨l6, h6, h6'⟩⟩ := rl_seq.1 h3
    obtain ⟨a, w, m5, h7, h8, h9, h10, h11⟩ := named_split hE h6 h6'
    have h2 := rl_tok.1 h2
    refine .bind (ok_attributes hE as h1 h1' fun _ => notBracket hE h2 (.inr ⟨_, word_kw .optional⟩))
      (.bind (.optKwT (okKw hE (k := .optional) h2))
      (.bind (.bind (ok_attributes hE as' h5 h5' fun _ => type_notBracket hE h7 h8)
        (.bind (ok_type hE t h7 h8 h9) .pure)) (.bind (okIdent hE h10 h11)
      (Far.last (Far.variant (Far.variant ?_))))))
    cases d with
    | none =>
      cases rl_eps.1 h4
      exact far_opt (g := G.default) (b := true) inferInstance _
    | some v => exact (far_default h4).opt
  | false =>
    simp only [argument, namedAttributed] at h
    obtain ⟨l1, l2, rfl, h1, h2⟩ := h
    simp only [Bool.false_eq_true, if_false] at h2
    obtain ⟨rfl, h2, h3⟩ := h2
    obtain ⟨m1, r1, r2⟩ := hr.split
    obtain ⟨l5, l6, rfl, h5, h6⟩ := h2
    obtain ⟨m2, r5, r6⟩ := r2.split
    obtain ⟨a, w, m5, h7, h8, h9, h10, h11⟩ := named_split hE h6 r6
    have hd : ∃ w ls', l5 ++ l6 = w :: ls' ∧ Solid w := by
      cases as' with
      | none =>
        simp only [attributes] at h5
        cases h5
        obtain ⟨a', b', rfl, h12, -⟩ := h6
        obtain ⟨w, ls', rfl, hw⟩ := solid_type_head hE h12
        exact ⟨w, _, rfl, hw⟩
      | some as' =>
        simp only [attributes] at h5
        obtain ⟨_, _, rfl, rfl, -⟩ := h5
        exact ⟨_, _, rfl, solid_punct (p := .openBracket) (by decide) (by decide)⟩
    obtain ⟨w', ls', hd, hw'⟩ := hd
    have no : NotNext CStep m1 c!"optional" := avoid_notNext hE hd hw' (solid_kw .optional) r2
      (h3 _ (by split <;> simp))
    have nb : as = none → NotNext CStep m1 c!"[" := by
      rintro rfl
      exact avoid_notNext hE hd hw' (solid_punct (p := .openBracket) (by decide) (by decide)) r2
        (h3 _ (by simp))
    exact .ofOk (.bind (ok_attributes hE as h1 r1 nb)
      (.bind (.optKwF (koKw_of hE (k := .optional) no))
      (.bind (.bind (ok_attributes hE as' h5 r5 fun _ => type_notBracket hE h7 h8)
        (.bind (ok_type hE t h7 h8 h9) .pure)) (.bind (okIdent hE h10 h11)
      (.bind (.bind .pure .pure) .pure)))))

theorem variadic_parts {as : Attrs} {t : Ty} {i : Str} {ls : List Str} (h : argument (.variadic as t i) ls)
    (hr : Reads CStep s ls r) : Okc G.variadicArgument s r (.variadic as t i) ∧ Koc G.singleArgument s := by
  simp only [argument] at h
  obtain ⟨m1, ⟨l1, h1, h1'⟩, h2⟩ := rl_seq.1 (hr.rl h)
  obtain ⟨m2, ⟨l2, h2, h2'⟩, h3⟩ := rl_seq.1 h2
  obtain ⟨m3, h3, h4⟩ := rl_seq.1 h3
  obtain ⟨w, h4, h4'⟩ := rl_name.1 h4
  have h3 := rl_tok.1 h3
  have nb := type_notBracket hE h2 h2'
  have ha := ok_attributes hE as h1 h1' fun _ => nb
  have ht := ok_type hE t h2 h2' (tf_punct hE (p := .ellipsis) h3)
  have de := dead_punct hE (p := .ellipsis) h3
  refine ⟨.bind ha (.bind ht (.bind (okPunct hE (p := .ellipsis) h3)
    (.bind (okIdent hE h4 h4') .pure))), .right ha ?_⟩
  rcases exact_char.total _ (.kw .optional) m1 with ⟨m', ⟨⟩, ho⟩ | ho
  · obtain ⟨w, h5, h6⟩ := exact_char.ok ho
    cases h6
    refine .right (.optKwT ho) ?_
    rcases type_optional hE h2 h2' h5 with rfl | h6
    · exact .left de.attributedType
    · exact .left (dead_punct hE (p := .qMark) h6).attributedType
  · refine .right (.optKwF ho) (.right (.bind (.none (.left (koPunct_of hE (k := .openBracket) nb)))
      (.bind ht .pure)) (.left de.ident))

theorem far_argument (t : Argument) {ls : List Str} (h : argument t ls) (hr : Reads CStep s ls r) : Far G.argument s r := by
  cases t with
  | single as o t i d => exact .here (far_singleArgument h hr)
  | variadic as t i =>
    obtain ⟨h1, h2⟩ := variadic_parts h hr
    exact .ofOk (.next h2 (.here h1))

end Verif.Longest
