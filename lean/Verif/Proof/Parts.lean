import Verif.Proof.Ending

/-!
# The types that implement `Parse`, one by one
-/

namespace Verif
open Nom Spec

local notation "hS" => exact_char.toStepping
local notation "hN" => ntSound_char

/-- Every run ends with the constructor in question. -/
macro "yields" : tactic => `(tactic| (
  intro s r a e
  repeat (obtain ⟨_, _, _, e⟩ := run_bind_ok.1 e)
  rw [run_pure] at e
  cases e
  rfl))

theorem Loose.only {α : Type} {L : α → Lang} {p : α → Prop} {a : α} (h : Loose (L a)) : Loose (only p L a) :=
  fun ls hl => h ls hl.2

/-! ## Terminals and literals -/

theorem part_kw (k : Kw) : Part (G.kw k) (fun _ => tok k.text) where
  snd := Snd.kw hS k
  loose _ := (Tidy.kw k).loose
  guarded := inferInstance
  ok _ _ _ _ h hr _ := okKw exact_char (rl_tok.1 (hr.rl h))

theorem part_ident : Part G.ident name where
  snd := Snd.ident hS
  loose i := (Tidy.name i).loose
  guarded := inferInstance
  ok _ _ _ _ h hr _ := by
    obtain ⟨w, h1, h2⟩ := rl_name.1 (hr.rl h)
    exact okIdent exact_char h1 h2

theorem part_stringLit : Part G.stringLit string where
  snd := snd_stringLit hS
  loose i := (Tidy.string i).loose
  guarded := inferInstance
  ok _ _ _ _ h hr _ := by
    obtain ⟨h1, h2⟩ := rl_string.1 (hr.rl h)
    exact okString exact_char h1 h2

theorem part_dec : Part (.leaf .dec) (literal Regex.dec) where
  snd := fun _ => .ofLeaf hS fun w m v _ h => by cases h.1; exact ⟨h.2, rfl⟩
  loose v := loose_integerLit (.dec v)
  guarded := inferInstance
  ok _ _ _ _ h hr hs := by
    obtain ⟨h1, h2⟩ := rl_literal.1 (hr.rl h)
    exact (exact_char.dec h1 h2 hs).2

theorem part_float : Part (.leaf .float) (literal Regex.float) where
  snd := fun _ => .ofLeaf hS fun w m v _ h => by cases h.1; exact ⟨h.2, rfl⟩
  loose v := loose_floatLit (.value v)
  guarded := inferInstance
  ok _ _ _ _ h hr hs := by
    obtain ⟨h1, h2⟩ := rl_literal.1 (hr.rl h)
    exact exact_char.float h1 h2 hs

theorem part_hex : Part (.leaf .hex) (literal Regex.hex) where
  snd := fun _ => .ofLeaf hS fun w m v _ h => by cases h.1; exact ⟨h.2, rfl⟩
  loose v := loose_integerLit (.hex v)
  guarded := inferInstance
  ok _ _ _ _ h hr hs := by
    obtain ⟨h1, h2⟩ := rl_literal.1 (hr.rl h)
    exact (exact_char.hex h1 h2 hs).2.2

theorem part_oct : Part (.leaf .oct) (literal Regex.oct) where
  snd := fun _ => .ofLeaf hS fun w m v _ h => by cases h.1; exact ⟨h.2, rfl⟩
  loose v := loose_integerLit (.oct v)
  guarded := inferInstance
  ok _ _ _ _ h hr hs := by
    obtain ⟨h1, h2⟩ := rl_literal.1 (hr.rl h)
    exact (exact_char.oct h1 h2 hs).2.2.2

theorem part_integerLit : Part G.integerLit integerLit where
  snd := snd_integerLit hS
  loose := loose_integerLit
  guarded := inferInstance
  ok _ _ _ _ h hr hs := okIntegerLit exact_char (hr.rl h) hs

theorem part_floatLit : Part G.floatLit floatLit where
  snd := snd_floatLit hS
  loose := loose_floatLit
  guarded := inferInstance
  ok _ _ _ _ h hr hs := okFloatLit exact_char (hr.rl h) hs

theorem part_booleanLit : Part G.booleanLit booleanLit where
  snd := snd_booleanLit hS
  loose b := (tidy_booleanLit b).loose
  guarded := inferInstance
  ok _ _ _ _ h hr _ := okBooleanLit exact_char (hr.rl h)

theorem part_emptyArrayLit : Part G.emptyArrayLit (fun _ => tok c!"[" ⨾ tok c!"]") where
  snd := fun _ => .punctThen hS fun _ _ => .punctEnd hS fun _ _ => ⟨_, _, rfl, rfl, rfl⟩
  loose _ := (Tidy.seq (.punct .openBracket) (.punct .closeBracket)).loose
  guarded := inferInstance
  ok _ _ _ _ h hr _ := by
    obtain ⟨m, h1, h2⟩ := rl_seq.1 (hr.rl h)
    exact .bind (okPunct exact_char (p := .openBracket) (rl_tok.1 h1))
      (.bind (okPunct exact_char (p := .closeBracket) (rl_tok.1 h2)) .pure)

theorem part_emptyDictionaryLit : Part G.emptyDictionaryLit (fun _ => tok c!"{" ⨾ tok c!"}") where
  snd := fun _ => .punctThen hS fun _ _ => .punctEnd hS fun _ _ => ⟨_, _, rfl, rfl, rfl⟩
  loose _ := (Tidy.seq (.punct .openBrace) (.punct .closeBrace)).loose
  guarded := inferInstance
  ok _ _ _ _ h hr _ := by
    obtain ⟨m, h1, h2⟩ := rl_seq.1 (hr.rl h)
    exact .bind (okPunct exact_char (p := .openBrace) (rl_tok.1 h1))
      (.bind (okPunct exact_char (p := .closeBrace) (rl_tok.1 h2)) .pure)

theorem part_defaultValue : Part G.defaultValue defaultValue where
  snd := snd_defaultValue hS
  loose := loose_defaultValue
  guarded := inferInstance
  ok _ _ _ _ h hr hs := okDefaultValue exact_char (hr.rl h) hs

theorem part_constValue : Part G.constValue constValue where
  snd := snd_constValue hS
  loose := loose_constValue
  guarded := inferInstance
  ok _ _ _ _ h hr hs := okConstValue exact_char (hr.rl h) hs

theorem part_default : Part G.default defaultPart where
  snd := fun _ => .punctThen hS fun _ _ => .mono (snd_defaultValue hS _) fun _ _ _ h => seq_tok h
  loose v := .thenLoose (.punct .assign) (loose_defaultValue v)
  guarded := inferInstance
  ok _ _ _ _ h hr hs := by
    obtain ⟨m, h1, h2⟩ := rl_seq.1 (hr.rl h)
    exact .bind (okPunct exact_char (p := .assign) (rl_tok.1 h1)) (okDefaultValue exact_char h2 hs)

/-! ## Types -/

theorem part_integerType : Part G.integerType integerType where
  snd := fun s => .mono (sndAt_integerType hS s) fun _ _ _ h => h.1
  loose t := (tidy_integerType t).loose
  guarded := inferInstance
  ok _ _ _ _ h hr hs := okInteger exact_char h hr (tf_stop exact_char hs).1

theorem part_floatingPointType : Part G.floatingPointType floatingPointType where
  snd := fun s => .mono (sndAt_floatingPointType hS s) fun _ _ _ h => h.1
  loose t := (tidy_floatingPointType t).loose
  guarded := inferInstance
  ok _ _ _ _ h hr _ := okFloating exact_char h hr

theorem integers_yield : ∀ g ∈ [(G.longLongType, IntegerKind.longLong), (G.longType, .long), (G.shortType, .short)],
    Yields g.1 (integerKind · = g.2) := by
  simp only [List.forall_mem_cons]
  refine ⟨?_, ?_, ?_, by simp⟩ <;> yields

theorem floats_yield : ∀ g ∈ [(G.floatType, FloatKind.float), (G.doubleType, .double)],
    Yields g.1 (floatKind · = g.2) := by
  simp only [List.forall_mem_cons]
  refine ⟨?_, ?_, by simp⟩ <;> yields

/-- One of several alternatives. -/
theorem Part.kind {α κ : Type} {f : α → κ} {gs : List (G α × κ)} {L : α → Lang} {g : G α} {k : κ}
    (hy : ∀ g ∈ gs, Yields g.1 (f · = g.2)) (hp : Part (G.alts (gs.map (·.1))) L)
    (hs : Snd charLeaf CStep (ntLim charLeaf) g L)
    (hg : Guarded true g true) (hm : (g, k) ∈ gs) (hu : ∀ g' ∈ gs, g'.2 = k → g'.1 = g) :
    Part g (only (f · = k) L) where
  snd := hs.only (hy _ hm)
  loose a := (hp.loose a).only
  guarded := hg
  ok a _ _ _ h hr hst := pick_kind hy hu (hp.ok a h.2 hr hst) h.1

theorem part_longLongType : Part G.longLongType (only (integerKind · = .longLong) integerType) :=
  .kind integers_yield part_integerType
    (fun _ => .bind (Snd.optKw hS _ _) fun u _ _ _ h => .kwThen hS fun _ _ =>
      .bindPure (f := fun _ => IntegerType.longLong u) (.kw hS fun _ _ => seq_intro h (seq_tok rfl)))
    inferInstance (by simp) (by simp)

theorem part_longType : Part G.longType (only (integerKind · = .long) integerType) :=
  .kind integers_yield part_integerType
    (fun _ => .bind (Snd.optKw hS _ _) fun u _ _ _ h =>
      .bindPure (f := fun _ => IntegerType.long u) (.kw hS fun _ _ => seq_intro h rfl))
    inferInstance (by simp) (by simp)

theorem part_shortType : Part G.shortType (only (integerKind · = .short) integerType) :=
  .kind integers_yield part_integerType
    (fun _ => .bind (Snd.optKw hS _ _) fun u _ _ _ h =>
      .bindPure (f := fun _ => IntegerType.short u) (.kw hS fun _ _ => seq_intro h rfl))
    inferInstance (by simp) (by simp)

theorem part_floatType : Part G.floatType (only (floatKind · = .float) floatingPointType) :=
  .kind floats_yield part_floatingPointType
    (fun _ => .bind (Snd.optKw hS _ _) fun u _ _ _ h =>
      .bindPure (f := fun _ => FloatingPointType.float u) (.kw hS fun _ _ => seq_intro h rfl))
    inferInstance (by simp) (by simp)

theorem part_doubleType : Part G.doubleType (only (floatKind · = .double) floatingPointType) :=
  .kind floats_yield part_floatingPointType
    (fun _ => .bind (Snd.optKw hS _ _) fun u _ _ _ h =>
      .bindPure (f := fun _ => FloatingPointType.double u) (.kw hS fun _ _ => seq_intro h rfl))
    inferInstance (by simp) (by simp)

theorem part_type : Part G.type type where
  snd := snd_type hS hN
  loose t := (tidy_type t).loose
  guarded := inferInstance
  ok t _ _ _ h hr hs := ok_type exact_char t h hr (tf_stop exact_char hs)

theorem part_singleType : Part G.singleType singleType where
  snd := fun s => .altsCons (.kwAs hS fun _ _ => by simp only [singleType]; rfl) fun h =>
    .altsCons (.variant (.withReads (.mono (sndAt_nonAnyType hS hN s) fun _ _ _ h1 hr => by
      simp only [singleType]
      refine ⟨h1.1, ?_⟩
      simp
      exact hr.not_prefix (fails_kwAs hS h)))) fun _ => .altsNil
  loose t := (tidy_singleType t).loose
  guarded := inferInstance
  ok t _ s r h hr hs := by
    have h' := ok_type exact_char (.single t) (by simp only [type]; exact h) hr (tf_stop exact_char hs)
    rcases alts_cons h' with h' | h'
    · obtain ⟨_, _, h1, h2⟩ := run_bind_ok.1 h'
      rw [run_pure] at h2
      cases h2
      exact h1
    · rcases alts_cons h' with h' | h'
      · obtain ⟨_, _, _, h2⟩ := run_bind_ok.1 h'
        obtain ⟨_, _, _, h2⟩ := run_bind_ok.1 h2
        rw [run_pure] at h2
        cases h2
      · exact (alts_nil h').elim

theorem part_nonAnyType : Part G.nonAnyType nonAnyType where
  snd := fun s => .mono (sndAt_nonAnyType hS hN s) fun _ _ _ h => h.1
  loose t := (tidy_nonAnyType t).loose
  guarded := inferInstance
  ok t _ _ _ h hr hs := ok_nonAnyType exact_char t h hr (tf_stop exact_char hs)

theorem part_promiseType : Part G.promiseType (only (∃ r, · = .promise r) nonAnyType) where
  snd := Snd.only (fun _ => .kwThen hS fun _ _ => .bindPure (f := NonAnyType.promise)
    (.mono (Snd.generics hS (snd_returnTypeOf hS hN (snd_ntType hS hN)) _) fun _ _ _ h => by
      simp only [nonAnyType]; exact seq_tok h)) <| by
    intro s r a e
    repeat (obtain ⟨_, _, _, e⟩ := run_bind_ok.1 e)
    rw [run_pure] at e
    cases e
    exact ⟨_, rfl⟩
  loose t := (tidy_nonAnyType t).loose.only
  guarded := inferInstance
  ok t _ _ _ h hr hs := by
    obtain ⟨⟨t, rfl⟩, h⟩ := h
    simp only [nonAnyType] at h
    obtain ⟨n, h1, h2⟩ := rl_seq.1 (hr.rl h)
    obtain ⟨m1, h3, m2, ⟨l, h4, h4'⟩, h5⟩ := rl_angles.1 h2
    exact .bind (okKw exact_char (k := .promise) (rl_tok.1 h1)) (.bind (okAngles exact_char h3
      (ok_returnType exact_char t h4 h4' (tf_punct exact_char (p := .greaterThan) h5)) h5) .pure)

theorem part_sequenceType : Part G.sequenceType sequencePart where
  snd := fun _ => .kwThen hS fun _ _ => .mono (Snd.generics hS (snd_ntType hS hN) _) fun _ _ _ h => seq_tok h
  loose t := (Tidy.seq (.kw .sequence) (.angles (tidy_type t))).loose
  guarded := inferInstance
  ok t _ _ _ h hr hs := by
    obtain ⟨n, h1, h2⟩ := rl_seq.1 (hr.rl h)
    obtain ⟨m1, h3, m2, ⟨l, h4, h4'⟩, h5⟩ := rl_angles.1 h2
    exact .bind (okKw exact_char (k := .sequence) (rl_tok.1 h1)) (okAngles exact_char h3
      (okCall exact_char (ok_type exact_char t h4 h4' (tf_punct exact_char (p := .greaterThan) h5))) h5)

theorem part_frozenArrayType : Part G.frozenArrayType frozenArrayPart where
  snd := fun _ => .kwThen hS fun _ _ => .mono (Snd.generics hS (snd_ntType hS hN) _) fun _ _ _ h => seq_tok h
  loose t := (Tidy.seq (.kw .frozenArray) (.angles (tidy_type t))).loose
  guarded := inferInstance
  ok t _ _ _ h hr hs := by
    obtain ⟨n, h1, h2⟩ := rl_seq.1 (hr.rl h)
    obtain ⟨m1, h3, m2, ⟨l, h4, h4'⟩, h5⟩ := rl_angles.1 h2
    exact .bind (okKw exact_char (k := .frozenArray) (rl_tok.1 h1)) (okAngles exact_char h3
      (okCall exact_char (ok_type exact_char t h4 h4' (tf_punct exact_char (p := .greaterThan) h5))) h5)

theorem part_recordType : Part G.recordType recordPart where
  snd := fun _ => .kwThen hS fun _ _ => .mono (Snd.generics hS
    (L := fun kv => recordKeyType kv.1 ⨾ comma ⨾ type kv.2) (fun _ => .bind (sndAt_recordKeyType hS hN _)
      fun k _ _ _ h1 => .punctThen hS fun _ _ =>
      .bindPure (f := fun v => (k, v)) (.mono (snd_ntType hS hN _) fun _ _ _ h2 =>
        seq_intro h1 (seq_tok h2))) _) fun _ _ _ h => seq_tok h
  loose t := (Tidy.seq (.kw .record) (.angles (.seq (tidy_recordKeyType t.1) (.seq .comma (tidy_type t.2))))).loose
  guarded := inferInstance
  ok t _ _ _ h hr hs := by
    obtain ⟨k, t⟩ := t
    obtain ⟨m0, h1, h1'⟩ := rl_seq.1 (hr.rl h)
    obtain ⟨m1, h3, m2, h4, h5⟩ := rl_angles.1 h1'
    obtain ⟨m3, ⟨l, h6, h6'⟩, h7⟩ := rl_seq.1 h4
    obtain ⟨m4, h7, ⟨l', h8, h8'⟩⟩ := rl_seq.1 h7
    have h7 := rl_tok.1 h7
    exact .bind (okKw exact_char (k := .record) (rl_tok.1 h1)) (okAngles exact_char h3 (.bind
        (ok_recordKeyType exact_char k h6 h6' (tf_punct exact_char (p := .comma) h7))
        (.bind (okPunct exact_char (p := .comma) h7) (.bind (f := fun v => pure (k, v)) (okCall exact_char (N := .type)
        (ok_type exact_char t h8 h8' (tf_punct exact_char (p := .greaterThan) h5))) .pure))) h5)

theorem part_recordKeyType : Part G.recordKeyType recordKeyType where
  snd := sndAt_recordKeyType hS hN
  loose t := (tidy_recordKeyType t).loose
  guarded := inferInstance
  ok t _ _ _ h hr hs := ok_recordKeyType exact_char t h hr (tf_stop exact_char hs)

theorem part_unionType : Part G.unionType unionPart where
  snd := fun s => .mono (snd_unionType hS hN s) fun _ _ _ h => by
    simp only [unionMembers_eq] at h; exact h
  loose t := by
    have := Tidy.parens (.sepBy (.kw .or) (tidy_unionMembers t))
    rw [unionMembers_eq] at this
    exact this.loose
  guarded := inferInstance
  ok t _ _ _ h hr hs := by
    obtain ⟨m1, h3, m2, h4, h5⟩ := rl_parens.1 (hr.rl h)
    rw [← unionMembers_eq] at h4
    exact okParens exact_char h3 (okSepList exact_char (guarded_call _) (guarded_kw _)
        (ok_unionMembers exact_char t h4 h5) (koKw exact_char (solid_punct (p := .closeParen) (by decide) (by decide)) h5
          (by decide)) (koCall exact_char (dead_punct exact_char (p := .closeParen) h5).unionMember)) h5

theorem part_unionMemberType : Part G.unionMemberType unionMember where
  snd := snd_unionMemberType hS hN
  loose t := (tidy_unionMember t).loose
  guarded := inferInstance
  ok t _ _ _ h hr hs := ok_unionMember exact_char t h hr (.inr hs)

theorem part_attributedNonAnyType :
    Part G.attributedNonAnyType (only (∃ as t, · = .single as t) unionMember) where
  snd := Snd.only (fun _ => .bind (snd_attrs hS hN _) fun as _ _ _ h1 =>
    .bindPure (f := fun t => UnionMember.single as t) (.mono (sndAt_nonAnyType hS hN _) fun _ _ _ h2 => by
        simp only [unionMember]; exact seq_intro h1 h2.1)) <| by
    intro s r a e
    repeat (obtain ⟨_, _, _, e⟩ := run_bind_ok.1 e)
    rw [run_pure] at e
    cases e
    exact ⟨_, _, rfl⟩
  loose t := (tidy_unionMember t).loose.only
  guarded := inferInstance
  ok t _ _ _ h hr hs := by
    obtain ⟨⟨as, t, rfl⟩, h⟩ := h
    simp only [unionMember] at h
    obtain ⟨a, b, rfl, h1, h2⟩ := h
    obtain ⟨m, h3, h4⟩ := hr.split
    exact .bind (ok_attributes exact_char as h1 h3 fun _ => nonAny_notBracket exact_char h2 h4)
      (.bind (ok_nonAnyType exact_char t h2 h4 (tf_stop exact_char hs)) .pure)

theorem part_constType : Part G.constType constType where
  snd := fun s => .mono (sndAt_constType hS s) fun _ _ _ h => h.1
  loose t := (tidy_constType t).loose
  guarded := inferInstance
  ok t _ _ _ h hr hs := okConstType exact_char h hr (tf_stop exact_char hs)

theorem part_returnType : Part G.returnType returnType where
  snd := snd_returnType hS hN
  loose t := (tidy_returnType t).loose
  guarded := inferInstance
  ok t _ _ _ h hr hs := okReturnType exact_char h hr (tf_stop exact_char hs)

theorem part_attributedType : Part G.attributedType attributedType where
  snd := snd_attributedType hS hN
  loose t := (tidy_attributedType t).loose
  guarded := inferInstance
  ok t _ _ _ h hr hs := okAttributed exact_char (hr.rl h) fun _ => tf_stop exact_char hs

/-! ## Attributes and arguments -/

theorem part_identifierOrString : Part G.identifierOrString identifierOrString where
  snd := snd_identifierOrString hS
  loose t := (tidy_idOrString t).loose
  guarded := inferInstance
  ok t _ _ _ h hr hs := by
    cases t with
    | identifier i =>
      obtain ⟨w, h1, h2⟩ := rl_name.1 (hr.rl h)
      exact .here (.variant (okIdent exact_char h1 h2))
    | string v =>
      obtain ⟨h1, h2⟩ := rl_string.1 (hr.rl h)
      exact .next (.variant (koIdent exact_char (.inr (.inr (.inl ⟨v, h1, rfl⟩))) h2
        fun i h => string_not_wordy (.inl ⟨i, h⟩))) (.here (.variant (okString exact_char h1 h2)))

theorem part_extAttr : Part G.extAttr extAttr where
  snd := snd_extAttr hS hN
  loose t := (tidy_extAttr t).loose
  guarded := inferInstance
  ok t _ _ _ h hr hs := ok_extAttr exact_char t h hr hs

theorem extAttrs_yield : ∀ g ∈ [(G.extAttrArgList, AttrKind.argList), (G.extAttrNamedArgList, .namedArgList),
    (G.extAttrIdentList, .identList), (G.extAttrIdent, .ident), (G.extAttrWildcard, .wildcard),
    (G.extAttrNoArgs, .noArgs)], Yields g.1 (attrKind · = g.2) := by
  simp only [List.forall_mem_cons]
  refine ⟨?_, ?_, ?_, ?_, ?_, ?_, by simp⟩ <;> yields

theorem part_extAttrArgList : Part G.extAttrArgList (only (attrKind · = .argList) extAttr) :=
  .kind extAttrs_yield part_extAttr (snd_extAttrArgList hS hN) inferInstance (by simp) (by simp)

theorem part_extAttrNamedArgList : Part G.extAttrNamedArgList (only (attrKind · = .namedArgList) extAttr) :=
  .kind extAttrs_yield part_extAttr (snd_extAttrNamedArgList hS hN) inferInstance (by simp) (by simp)

theorem part_extAttrIdentList : Part G.extAttrIdentList (only (attrKind · = .identList) extAttr) :=
  .kind extAttrs_yield part_extAttr (snd_extAttrIdentList hS hN) inferInstance (by simp) (by simp)

theorem part_extAttrIdent : Part G.extAttrIdent (only (attrKind · = .ident) extAttr) :=
  .kind extAttrs_yield part_extAttr (snd_extAttrIdent hS hN) inferInstance (by simp) (by simp)

theorem part_extAttrWildcard : Part G.extAttrWildcard (only (attrKind · = .wildcard) extAttr) :=
  .kind extAttrs_yield part_extAttr (snd_extAttrWildcard hS hN) inferInstance (by simp) (by simp)

theorem part_extAttrNoArgs : Part G.extAttrNoArgs (only (attrKind · = .noArgs) extAttr) :=
  .kind extAttrs_yield part_extAttr (snd_extAttrNoArgs hS hN) inferInstance (by simp) (by simp)

theorem part_extAttrList : Part G.extAttrList attributeList where
  snd := fun s => .mono (snd_extAttrList hS hN s) fun _ _ _ h => by
    simp only [attributes, extAttrs_eq] at h; exact h
  loose as := by
    have := (tidy_attributes (some as)).loose
    simp only [attributes, extAttrs_eq] at this
    exact this
  guarded := inferInstance
  ok as _ _ _ h hr hs := by
    obtain ⟨m1, h1, m2, h2, h3⟩ := rl_brackets.1 (hr.rl h)
    rw [← extAttrs_eq] at h2
    exact okBrackets exact_char h1 (okCommaList exact_char guarded_extAttr (ok_extAttrs exact_char as h2 h3)
      (koPunct exact_char (solid_punct (p := .closeBracket) (by decide) (by decide)) h3 (by decide))
      (dead_punct exact_char (p := .closeBracket) h3).extAttr) h3

theorem part_argument : Part G.argument argument where
  snd := snd_argument hS hN
  loose := loose_argument
  guarded := inferInstance
  ok t _ _ _ h hr hs := ok_argument exact_char t h hr hs

theorem arguments_yield : ∀ g ∈ [(G.singleArgument, Arity.one), (G.variadicArgument, .several)],
    Yields g.1 (argumentArity · = g.2) := by
  simp only [List.forall_mem_cons]
  refine ⟨?_, ?_, by simp⟩ <;> yields

theorem part_singleArgument : Part G.singleArgument (only (argumentArity · = .one) argument) :=
  .kind arguments_yield part_argument (snd_singleArgument hS hN) inferInstance (by simp) (by simp)

theorem part_variadicArgument : Part G.variadicArgument (only (argumentArity · = .several) argument) :=
  .kind arguments_yield part_argument (snd_variadicArgument hS hN) inferInstance (by simp) (by simp)

theorem part_argumentList : Part (G.parenthesized G.argumentList) argumentList where
  snd := snd_parenArgs hS hN
  loose as := (tidy_argumentList as).loose
  guarded := inferInstance
  ok t _ _ _ h hr hs := okArgs exact_char (hr.rl h)

theorem part_inheritance : Part G.inheritance inheritancePart where
  snd := fun _ => .punctThen hS fun _ _ => .mono (Snd.ident hS _) fun _ _ _ h => seq_tok h
  loose i := (Tidy.seq (.punct .colon) (.name i)).loose
  guarded := inferInstance
  ok t _ _ _ h hr hs := by
    obtain ⟨m, h1, h2⟩ := rl_seq.1 (hr.rl h)
    obtain ⟨w, h2, h3⟩ := rl_name.1 h2
    exact .bind (okPunct exact_char (p := .colon) (rl_tok.1 h1)) (okIdent exact_char h2 h3)

/-! ## Modifiers -/

theorem part_modifier : Part G.stringifierOrInheritOrStatic modifierWord where
  snd := fun _ => .altsCons (.kwAs hS fun _ _ => rfl) fun _ => .altsCons (.kwAs hS fun _ _ => rfl) fun _ =>
    .altsCons (.kwAs hS fun _ _ => rfl) fun _ => .altsNil
  loose m := by
    cases m
    · exact (Tidy.kw .stringifier).loose
    · exact (Tidy.kw .inherit).loose
    · exact (Tidy.kw .static).loose
  guarded := inferInstance
  ok m _ _ _ h hr hs := by
    have h := hr.rl h
    cases m with
    | stringifier => exact .here (okKwAs exact_char (k := .stringifier) (rl_tok.1 h))
    | inherit =>
      have h := rl_tok.1 h
      exact .next (.kwAs (koKw' exact_char (k := .inherit) h)) (.here (okKwAs exact_char (k := .inherit) h))
    | static =>
      have h := rl_tok.1 h
      exact .next (.kwAs (koKw' exact_char (k := .static) h)) (.next (.kwAs (koKw' exact_char (k := .static) h))
        (.here (okKwAs exact_char (k := .static) h)))

theorem part_static : Part G.stringifierOrStatic staticWord where
  snd := fun _ => .altsCons (.kwAs hS fun _ _ => rfl) fun _ => .altsCons (.kwAs hS fun _ _ => rfl) fun _ =>
    .altsNil
  loose m := by
    cases m
    · exact (Tidy.kw .stringifier).loose
    · exact (Tidy.kw .static).loose
  guarded := inferInstance
  ok m _ _ _ h hr hs := by
    have h := hr.rl h
    cases m with
    | stringifier => exact .here (okKwAs exact_char (k := .stringifier) (rl_tok.1 h))
    | static =>
      have h := rl_tok.1 h
      exact .next (.kwAs (koKw' exact_char (k := .static) h)) (.here (okKwAs exact_char (k := .static) h))

theorem part_special : Part G.special specialWord where
  snd := fun _ => .altsCons (.kwAs hS fun _ _ => rfl) fun _ => .altsCons (.kwAs hS fun _ _ => rfl) fun _ =>
    .altsCons (.kwAs hS fun _ _ => rfl) fun _ => .altsCons (.kwAs hS fun _ _ => rfl) fun _ => .altsNil
  loose m := by
    cases m
    · exact (Tidy.kw .getter).loose
    · exact (Tidy.kw .setter).loose
    · exact (Tidy.kw .deleter).loose
    · exact (Tidy.kw .legacyCaller).loose
  guarded := inferInstance
  ok m _ _ _ h hr hs := by
    have h := hr.rl h
    cases m with
    | getter => exact .here (okKwAs exact_char (k := .getter) (rl_tok.1 h))
    | setter =>
      have h := rl_tok.1 h
      exact .next (.kwAs (koKw' exact_char (k := .setter) h)) (.here (okKwAs exact_char (k := .setter) h))
    | deleter =>
      have h := rl_tok.1 h
      exact .next (.kwAs (koKw' exact_char (k := .deleter) h)) (.next (.kwAs (koKw' exact_char (k := .deleter) h))
        (.here (okKwAs exact_char (k := .deleter) h)))
    | legacyCaller =>
      have h := rl_tok.1 h
      exact .next (.kwAs (koKw' exact_char (k := .legacyCaller) h))
        (.next (.kwAs (koKw' exact_char (k := .legacyCaller) h))
        (.next (.kwAs (koKw' exact_char (k := .legacyCaller) h))
        (.here (okKwAs exact_char (k := .legacyCaller) h))))

theorem part_punct (p : Punct) (h : p ≠ .dot ∧ p ≠ .minus ∧ p ≠ .semiColon) :
    Part (G.punct p) (fun _ => tok p.text) where
  snd := Snd.punct hS p
  loose _ := (Tidy.punct p h).loose
  guarded := inferInstance
  ok _ _ _ _ h hr _ := okPunct exact_char (rl_tok.1 (hr.rl h))

end Verif
