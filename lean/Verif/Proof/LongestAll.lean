import Verif.Proof.LongestType
import Verif.Properties.Parts

/-!
# The longest prefix is taken: every type, and texts
-/

namespace Verif.Longest
open Nom Spec Properties

variable {α : Type} {s m r : Str}

local notation "hE" => exact_char

theorem longLong_far {t : IntegerType} (h1 : integerKind t = .longLong) (h : RL CStep (integerType t) s r) :
    Far G.longLongType s r := by
  cases t <;> cases h1
  rename_i u
  obtain ⟨m1, h1, h2⟩ := rl_seq.1 h
  obtain ⟨m2, h2, h3⟩ := rl_seq.1 h2
  have h2 := rl_tok.1 h2
  refine .ofOk (.bind (okOptKw hE (k := .unsigned) h1 ?_) (.bind (okKw hE (k := .long) h2)
    (.bind (okKw hE (k := .long) (rl_tok.1 h3)) .pure)))
  rintro rfl; cases rl_eps.1 h1; exact notNext_kw hE (k := .long) h2

theorem short_far {t : IntegerType} (h1 : integerKind t = .short) (h : RL CStep (integerType t) s r) :
    Far G.shortType s r := by
  cases t <;> cases h1
  obtain ⟨m1, h1, h2⟩ := rl_seq.1 h
  have h2 := rl_tok.1 h2
  refine .ofOk (.bind (okOptKw hE (k := .unsigned) h1 ?_) (.bind (okKw hE (k := .short) h2) .pure))
  rintro rfl; cases rl_eps.1 h1; exact notNext_kw hE (k := .short) h2

theorem float_far {t : FloatingPointType} (h1 : floatKind t = .float) (h : RL CStep (floatingPointType t) s r) :
    Far G.floatType s r := by
  cases t <;> cases h1
  obtain ⟨m1, h1, h2⟩ := rl_seq.1 h
  have h2 := rl_tok.1 h2
  refine .ofOk (.bind (okOptKw hE (k := .unrestricted) h1 ?_) (.bind (okKw hE (k := .float) h2) .pure))
  rintro rfl; cases rl_eps.1 h1; exact notNext_kw hE (k := .float) h2

theorem double_far {t : FloatingPointType} (h1 : floatKind t = .double) (h : RL CStep (floatingPointType t) s r) :
    Far G.doubleType s r := by
  cases t <;> cases h1
  obtain ⟨m1, h1, h2⟩ := rl_seq.1 h
  have h2 := rl_tok.1 h2
  refine .ofOk (.bind (okOptKw hE (k := .unrestricted) h1 ?_) (.bind (okKw hE (k := .double) h2) .pure))
  rintro rfl; cases rl_eps.1 h1; exact notNext_kw hE (k := .double) h2

theorem ext_far {t : ExtAttr} {g : G ExtAttr} {k : AttrKind} (hk : ∀ t, attrKind t = k → extOf t = g)
    {ls : List Str} (h : only (attrKind · = k) extAttr t ls) (hr : Reads CStep s ls r) : Far g s r := by
  obtain ⟨h1, h2⟩ := h
  have := ok_extOf t h2 hr
  rw [hk t h1] at this
  exact .ofOk this

theorem part_far {g : G α} {L : α → Lang} (hp : PartOf g L) {a : α} {ls : List Str} (h : L a ls) (hr : Reads CStep s ls r) :
    Far g s r := by
  cases hp with
  | kw k => exact .ofOk (okKw hE (rl_tok.1 (hr.rl h)))
  | punct p h => exact .ofOk (okPunct hE (rl_tok.1 (hr.rl (by assumption))))
  | ident =>
    obtain ⟨w, h1, h2⟩ := rl_name.1 (hr.rl h)
    exact .ofOk (okIdent hE h1 h2)
  | stringLit =>
    obtain ⟨h1, h2⟩ := rl_string.1 (hr.rl h)
    exact .ofOk (okString hE h1 h2)
  | decLit =>
    obtain ⟨h1, h2⟩ := rl_literal.1 (hr.rl h)
    exact numDec.far h1 h2
  | hexLit =>
    obtain ⟨h1, h2⟩ := rl_literal.1 (hr.rl h)
    exact numHex.far h1 h2
  | octLit =>
    obtain ⟨h1, h2⟩ := rl_literal.1 (hr.rl h)
    exact numOct.far h1 h2
  | floatValueLit =>
    obtain ⟨h1, h2⟩ := rl_literal.1 (hr.rl h)
    exact numFloat.far h1 h2
  | integerLit => exact far_integerLit (hr.rl h)
  | floatLit => exact far_floatLit (hr.rl h)
  | booleanLit => exact .ofOk (okBooleanLit hE (hr.rl h))
  | emptyArrayLit =>
    obtain ⟨m, h1, h2⟩ := rl_seq.1 (hr.rl h)
    exact .ofOk <| .bind (okPunct hE (p := .openBracket) (rl_tok.1 h1))
      (.bind (okPunct hE (p := .closeBracket) (rl_tok.1 h2)) .pure)
  | emptyDictionaryLit =>
    obtain ⟨m, h1, h2⟩ := rl_seq.1 (hr.rl h)
    exact .ofOk <| .bind (okPunct hE (p := .openBrace) (rl_tok.1 h1))
      (.bind (okPunct hE (p := .closeBrace) (rl_tok.1 h2)) .pure)
  | defaultValue => exact far_defaultValue (hr.rl h)
  | constValue => exact far_constValue (hr.rl h)
  | default => exact far_default (hr.rl h)
  | longLongType => exact longLong_far h.1 (hr.rl h.2)
  | longType =>
    obtain ⟨h1, h2⟩ := h
    cases a <;> cases h1
    exact far_longType (hr.rl h2)
  | shortType => exact short_far h.1 (hr.rl h.2)
  | integerType => exact far_integer h hr
  | floatType => exact float_far h.1 (hr.rl h.2)
  | doubleType => exact double_far h.1 (hr.rl h.2)
  | floatingPointType => exact .ofOk (okFloating hE h hr)
  | type => exact far_type a h hr
  | singleType => exact far_singleType a h hr
  | nonAnyType => exact far_nonAnyType a h hr
  | promiseType =>
    obtain ⟨⟨t, rfl⟩, h⟩ := h
    simp only [nonAnyType] at h
    obtain ⟨n, h1, h2⟩ := rl_seq.1 (hr.rl h)
    obtain ⟨m1, h3, m2, ⟨l, h4, h4'⟩, h5⟩ := rl_angles.1 h2
    exact .ofOk <| .bind (okKw hE (k := .promise) (rl_tok.1 h1)) (.bind (okAngles hE h3
      (ok_returnType hE t h4 h4' (tf_punct hE (p := .greaterThan) h5)) h5) .pure)
  | sequenceType =>
    obtain ⟨n, h1, h2⟩ := rl_seq.1 (hr.rl h)
    obtain ⟨m1, h3, m2, ⟨l, h4, h4'⟩, h5⟩ := rl_angles.1 h2
    exact .ofOk <| .bind (okKw hE (k := .sequence) (rl_tok.1 h1)) (okAngles hE h3
      (okCall hE (ok_type hE a h4 h4' (tf_punct hE (p := .greaterThan) h5))) h5)
  | frozenArrayType =>
    obtain ⟨n, h1, h2⟩ := rl_seq.1 (hr.rl h)
    obtain ⟨m1, h3, m2, ⟨l, h4, h4'⟩, h5⟩ := rl_angles.1 h2
    exact .ofOk <| .bind (okKw hE (k := .frozenArray) (rl_tok.1 h1)) (okAngles hE h3
      (okCall hE (ok_type hE a h4 h4' (tf_punct hE (p := .greaterThan) h5))) h5)
  | recordType =>
    obtain ⟨k, t⟩ := a
    obtain ⟨m0, h1, h1'⟩ := rl_seq.1 (hr.rl h)
    obtain ⟨m1, h3, m2, h4, h5⟩ := rl_angles.1 h1'
    obtain ⟨m3, ⟨l, h6, h6'⟩, h7⟩ := rl_seq.1 h4
    obtain ⟨m4, h7, ⟨l', h8, h8'⟩⟩ := rl_seq.1 h7
    have h7 := rl_tok.1 h7
    exact .ofOk (a := (k, t)) <| .bind (okKw hE (k := .record) (rl_tok.1 h1)) (okAngles hE h3 (.bind
        (ok_recordKeyType hE k h6 h6' (tf_punct hE (p := .comma) h7))
        (.bind (okPunct hE (p := .comma) h7) (.bind (f := fun v => pure (k, v)) (okCall hE (N := .type)
        (ok_type hE t h8 h8' (tf_punct hE (p := .greaterThan) h5))) .pure))) h5)
  | recordKeyType => exact far_recordKeyType a h hr
  | unionType =>
    refine .ofOk (ok_unionBody (ms := a) ?_)
    rw [unionMembers_eq]
    exact hr.rl h
  | unionMemberType => exact far_unionMember a h hr
  | attributedNonAnyType =>
    obtain ⟨⟨as, t, rfl⟩, h⟩ := h
    exact far_attributedNonAny h hr
  | constType => exact far_constType h hr
  | returnType => exact far_returnType a h hr
  | attributedType => exact far_attributedType a h hr
  | identifierOrString => exact .ofOk (ok_idOrString (hr.rl h))
  | extAttrArgList => exact ext_far (fun t h => by cases t <;> cases h <;> rfl) h hr
  | extAttrNamedArgList => exact ext_far (fun t h => by cases t <;> cases h <;> rfl) h hr
  | extAttrIdentList => exact ext_far (fun t h => by cases t <;> cases h <;> rfl) h hr
  | extAttrIdent => exact ext_far (fun t h => by cases t <;> cases h <;> rfl) h hr
  | extAttrWildcard => exact ext_far (fun t h => by cases t <;> cases h <;> rfl) h hr
  | extAttrNoArgs => exact ext_far (fun t h => by cases t <;> cases h <;> rfl) h hr
  | extAttr => exact far_extAttr a h hr
  | extAttrList =>
    obtain ⟨m1, h1, m2, h2, h3⟩ := rl_brackets.1 (hr.rl h)
    rw [← extAttrs_eq] at h2
    exact .ofOk <| okBrackets hE h1 (okCommaList hE guarded_extAttr (ok_extAttrs hE a h2 h3)
      (koPunct hE (solid_punct (p := .closeBracket) (by decide) (by decide)) h3 (by decide))
      (dead_punct hE (p := .closeBracket) h3).extAttr) h3
  | singleArgument =>
    obtain ⟨h1, h2⟩ := h
    cases a <;> cases h1
    exact far_singleArgument h2 hr
  | variadicArgument =>
    obtain ⟨h1, h2⟩ := h
    cases a <;> cases h1
    exact .ofOk (variadic_parts h2 hr).1
  | argument => exact far_argument a h hr
  | argumentList => exact .ofOk (okArgs hE (hr.rl h))
  | inheritance =>
    obtain ⟨m, h1, h2⟩ := rl_seq.1 (hr.rl h)
    obtain ⟨w, h2, h3⟩ := rl_name.1 h2
    exact .ofOk (.bind (okPunct hE (p := .colon) (rl_tok.1 h1)) (okIdent hE h2 h3))
  | stringifierOrInheritOrStatic =>
    have h := hr.rl h
    cases a with
    | stringifier => exact .ofOk <| .here (okKwAs hE (k := .stringifier) (rl_tok.1 h))
    | inherit =>
      have h := rl_tok.1 h
      exact .ofOk <| .next (.kwAs (koKw' hE (k := .inherit) h)) (.here (okKwAs hE (k := .inherit) h))
    | static =>
      have h := rl_tok.1 h
      exact .ofOk <| .next (.kwAs (koKw' hE (k := .static) h)) (.next (.kwAs (koKw' hE (k := .static) h))
        (.here (okKwAs hE (k := .static) h)))
  | stringifierOrStatic =>
    have h := hr.rl h
    cases a with
    | stringifier => exact .ofOk <| .here (okKwAs hE (k := .stringifier) (rl_tok.1 h))
    | static =>
      have h := rl_tok.1 h
      exact .ofOk <| .next (.kwAs (koKw' hE (k := .static) h)) (.here (okKwAs hE (k := .static) h))
  | special =>
    have h := hr.rl h
    cases a with
    | getter => exact .ofOk <| .here (okKwAs hE (k := .getter) (rl_tok.1 h))
    | setter =>
      have h := rl_tok.1 h
      exact .ofOk <| .next (.kwAs (koKw' hE (k := .setter) h)) (.here (okKwAs hE (k := .setter) h))
    | deleter =>
      have h := rl_tok.1 h
      exact .ofOk <| .next (.kwAs (koKw' hE (k := .deleter) h)) (.next (.kwAs (koKw' hE (k := .deleter) h))
        (.here (okKwAs hE (k := .deleter) h)))
    | legacyCaller =>
      have h := rl_tok.1 h
      exact .ofOk <| .next (.kwAs (koKw' hE (k := .legacyCaller) h))
        (.next (.kwAs (koKw' hE (k := .legacyCaller) h))
        (.next (.kwAs (koKw' hE (k := .legacyCaller) h))
        (.here (okKwAs hE (k := .legacyCaller) h))))

/-! ## All together -/

/-- What is needed of a parser and its spellings. -/
structure Longs (g : G α) (L : α → Lang) : Prop where
  snd : Snd charLeaf CStep (ntLim charLeaf) g L
  good : ∀ {a ls}, L a ls → Good (ls ++ [c!";"])
  nonempty : ∀ {a ls}, L a ls → ls ≠ []
  guarded : Guarded true g true
  far : ∀ {a ls s r}, L a ls → Reads CStep s ls r → Far g s r

theorem part_longs {g : G α} {L : α → Lang} (h : PartOf g L) : Longs g L where
  snd := h.part.snd
  good {a _} hl := (h.part.loose a _ hl).1 _ (by simp [Stop]) [] trivial
  nonempty {a _} hl := by
    rintro rfl
    exact ok_progress exact_char h.part.guarded (h.part.ok a (s := []) (r := []) hl .nil (.inl rfl)) rfl
  guarded := h.part.guarded
  far hl hr := part_far h hl hr

theorem whole_guarded {g : G α} {L : α → Lang} (h : WholeOf g L) : Guarded true g true := by
  cases h <;> infer_instance

theorem whole_longs {g : G α} {L : α → Lang} (h : WholeOf g L) : Longs g L where
  snd := h.whole.snd
  good {a _} hl := (h.whole.good a _ hl).append
    ⟨.inl (solid_punct (p := .semiColon) (by decide) (by decide)), trivial⟩
  nonempty {a _} hl := (h.whole.semi a).ne_nil hl
  guarded := whole_guarded h
  far {a _ _ _} hl hr := .ofOk (h.whole.ok a (hr.rl hl))

theorem longs {g : G α} {L : α → Lang} (h : PartOf g L ∨ WholeOf g L) : Longs g L := h.elim part_longs whole_longs

/-! ## Texts -/

theorem starts_reads {ls : List Str} {b : Str} (h : OpensWith r ls b) (hg : ∀ w ∈ ls, Solid w ∨ Number w) :
    ∀ t, Trivia t → Reads CStep (strip (t ++ b)) ls (strip r) := by
  induction h with
  | nil =>
    intro t ht
    rw [strip_trivia ht]
    exact .nil
  | @cons w ws t' s ht' hs ha ih =>
    intro t ht
    rw [strip_trivia ht]
    refine .cons (m := strip (t' ++ s)) ⟨t' ++ s, ?_, fun hw => ?_, rfl⟩
      (ih (fun w hw => hg w (.tail _ hw)) t' ht')
    · rw [strip_strip, lexeme_strip (hg w (.head _))]
    · rcases ha with ha | ha
      · exact absurd hw (Number.not_wordy ha)
      · exact apart_wordy hw ha

theorem prefixed_reads {t b : Str} {ls : List Str} (ht : Trivia t) (h : OpensWith r ls b)
    (hl : ls ≠ []) (hg : ∀ w ∈ ls, Solid w ∨ Number w) : Reads CStep (t ++ b) ls (strip r) := by
  have := starts_reads h hg t ht
  generalize hs : strip (t ++ b) = s at this
  cases this with
  | nil => exact absurd rfl hl
  | cons h1 h2 =>
    obtain ⟨e, h1, h3, h4⟩ := h1
    exact .cons ⟨e, by rwa [← hs, strip_strip] at h1, h3, h4⟩ h2

theorem reads_starts {ls : List Str} (h : Reads CStep s ls r) (hg : ∀ w ∈ ls, Solid w ∨ Number w) :
    (s = r ∧ ls = []) ∨ OpensWith r ls (strip s) := by
  induction h with
  | nil => exact .inl ⟨rfl, rfl⟩
  | @cons s m r w ls h t ih =>
    refine .inr ?_
    obtain ⟨e, h1, h2, rfl⟩ := h
    obtain ⟨t, h3, h4, -⟩ := skips_strip e
    have ha : Number w ∨ Apart w e := (hg w (.head _)).elim (fun h => .inr (solid_apart h h2)) .inl
    rw [h3] at ha
    rw [h1, h3]
    rcases ih fun w hw => hg w (.tail _ hw) with ⟨h5, rfl⟩ | h6
    · subst h5
      exact .cons h4 .nil ha
    · refine .cons h4 ?_ ha
      rwa [strip_strip] at h6

theorem trivia_nameEnd {t x : Str} (ht : Trivia t) (hx : NameEnd x) : NameEnd (t ++ x) := by
  cases ht with
  | nil => exact hx
  | white hc _ =>
    rintro d e h
    cases h
    simp at hc
    rcases hc with rfl | rfl | rfl | rfl <;> decide
  | line _ _ => rintro d e h; cases h; decide
  | block _ _ => rintro d e h; cases h; decide

theorem starts_text {ls : List Str} {b : Str} (h : OpensWith r ls b) (hg : Good (ls ++ [c!";"])) :
    ∃ b', b = b' ++ r ∧ Text ls b' := by
  induction h with
  | nil => exact ⟨[], rfl, .nil⟩
  | @cons w ws t s ht hs ha ih =>
    obtain ⟨b', rfl, h1⟩ := ih hg.2
    refine ⟨w ++ (t ++ b'), by simp, .cons ht h1 ?_⟩
    have hn : Apart w (t ++ (b' ++ r)) → Apart w (t ++ b') := by
      intro ha c d h1 h2 h3
      refine ha c d h1 ?_ h3
      rw [← List.append_assoc, List.head?_append, h2]; rfl
    rcases hg.1 with h | ⟨h, p, ls', h', hp⟩
    · rcases ha with ha | ha
      · exact (number_solid (e := []) (e' := []) h ha rfl).elim
      · exact hn ha
    · refine (trivia_nameEnd ht ?_).apart
      cases h1 with
      | nil => intro d e h; cases h
      | cons _ _ _ =>
        cases h'
        intro d e h
        simp [Stop] at hp
        rcases hp with rfl | rfl | rfl <;> cases h <;> decide

end Verif.Longest
