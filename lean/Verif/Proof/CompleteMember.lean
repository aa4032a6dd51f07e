import Verif.Proof.CompleteTree
import Verif.Proof.GuardedAll

/-!
# Completeness: members
-/

set_option linter.unusedSectionVars false

namespace Verif
open Nom Spec

variable {σ α β : Type} [DecidableEq σ] {leaf : ∀ α, Leaf α → P σ α}
  {Step : List σ → Str → List σ → Prop} {s m n r : List σ}

/-! ## The last lexeme of a member -/

/-- The lexeme in front of the final `;` satisfies `P`. -/
def Last (P : Str → Prop) (A : Lang) : Prop := ∀ ls, A ls → ∃ a w, ls = a ++ [w, c!";"] ∧ P w

/-- The last lexeme satisfies `P`. -/
def Ends (P : Str → Prop) (A : Lang) : Prop := ∀ ls, A ls → ∃ a w, ls = a ++ [w] ∧ P w

section
variable {P : Str → Prop} {A B : Lang}

theorem Ends.seq (h : Ends P B) : Ends P (A ⨾ B) := by
  rintro _ ⟨a, b, rfl, -, hb⟩
  obtain ⟨c, w, rfl, hw⟩ := h b hb
  exact ⟨a ++ c, w, by simp, hw⟩

theorem Last.seq (h : Last P B) : Last P (A ⨾ B) := by
  rintro _ ⟨a, b, rfl, -, hb⟩
  obtain ⟨c, w, rfl, hw⟩ := h b hb
  exact ⟨a ++ c, w, by simp, hw⟩

theorem Ends.last (h : Ends P A) : Last P (A ⨾ tok c!";") := by
  rintro _ ⟨a, _, rfl, ha, rfl⟩
  obtain ⟨c, w, rfl, hw⟩ := h a ha
  exact ⟨c, w, by simp, hw⟩

theorem Ends.tok {w : Str} (h : P w) : Ends P (tok w) := by
  rintro _ rfl
  exact ⟨[], w, rfl, h⟩

theorem Last.avoiding {ps : List (List Str)} (h : Last P A) : Last P (avoiding ps A) :=
  fun ls hl => h ls hl.1

theorem Last.modified {o : Option StringifierOrStatic} (h : Last P A) : Last P (modified o A) := by
  rcases o with _ | o
  · exact h.avoiding
  · cases o <;> exact h.seq

theorem Last.specialised {o : Option Special} (h : Last P A) : Last P (specialised o A) := by
  rcases o with _ | o
  · exact h.avoiding
  · cases o <;> exact h.seq

theorem Last.optWord {b : Bool} {w : Str} (h : Last P A) : Last P (optWord b w A) := by
  cases b
  · exact h.avoiding
  · exact h.seq

end

/-- Neither `)` nor `>`. -/
def Open (w : Str) : Prop := w ≠ c!")" ∧ w ≠ c!">"

theorem name_open {i w : Str} (h : name i [w]) : Open w :=
  ⟨by rintro rfl; exact name_ne_punct (p := .closeParen) h,
   by rintro rfl; exact name_ne_punct (p := .greaterThan) h⟩

theorem Number.open {w : Str} (h : Number w) : Open w := by
  constructor
  · rintro rfl
    have := h.chars ')' (by simp)
    revert this
    unfold NumChar
    decide
  · rintro rfl
    have := h.chars '>' (by simp)
    revert this
    unfold NumChar
    decide

theorem ends_literal {v : Str} {re : Regex} (h : re.Matches v → Number v) : Ends Open (literal re v) := by
  rintro _ ⟨h1, rfl⟩
  exact ⟨[], v, rfl, (h h1).open⟩

theorem ends_kw (k : Kw) : Ends Open (tok k.text) :=
  Ends.tok (by cases k <;> exact ⟨by decide, by decide⟩)

theorem ends_constValue (v : ConstValue) : Ends Open (constValue v) := by
  cases v with
  | boolean b =>
    cases b
    · exact ends_kw .false
    · exact ends_kw .true
  | float v =>
    cases v
    · exact ends_literal (.inr ∘ .inr ∘ .inr)
    · exact ends_kw .negInfinity
    · exact ends_kw .infinity
    · exact ends_kw .nan
  | integer v =>
    cases v
    · exact ends_literal .inl
    · exact ends_literal (.inr ∘ .inl)
    · exact ends_literal (.inr ∘ .inr ∘ .inl)
  | null => exact ends_kw .null

theorem ends_named {T : Lang} {i : Str} : Ends Open (named T i) := by
  rintro _ ⟨a, b, rfl, -, h, -⟩
  obtain ⟨w, rfl, h⟩ := name_single h
  exact ⟨a, w, rfl, name_open h⟩

theorem ends_namedAttributed (t : AttributedType) (i : Str) : Ends Open (namedAttributed t i) := by
  obtain ⟨as, t⟩ := t
  simp only [namedAttributed]
  exact ends_named.seq

theorem ends_argumentList (as : List Argument) : Ends (· = c!")") (argumentList as) :=
  .seq (.seq (.tok rfl))

theorem ends_angles {A : Lang} : Ends (· = c!">") (angles A) := .seq (.seq (.tok rfl))

theorem last_const (m : ConstMember) : Last Open (constMember m) :=
  .seq (.seq (.seq (.seq (ends_constValue _).last)))

theorem last_attributeInterface (m : AttributeInterfaceMember) : Last Open (attributeInterfaceMember m) :=
  .seq (.seq (.seq (.seq (ends_namedAttributed _ _).last)))

theorem last_attributeMixin (m : AttributeMixinMember) : Last Open (attributeMixinMember m) :=
  .seq (.seq (.seq (.seq (ends_namedAttributed _ _).last)))

theorem last_attributeNamespace (m : AttributeNamespaceMember) : Last Open (attributeNamespaceMember m) :=
  .seq (.seq (.seq (ends_namedAttributed _ _).last))

theorem last_operation (r : ReturnType) (i : Option Str) (as : List Argument) :
    Last (· = c!")") (returnNamed r i ⨾ argumentList as ⨾ tok c!";") :=
  .seq (ends_argumentList _).last

theorem last_operationInterface (m : OperationInterfaceMember) :
    Last (· = c!")") (operationInterfaceMember m) :=
  .seq (.avoiding (.modified (.specialised (last_operation _ _ _))))

theorem last_operationMixin (m : OperationMixinMember) : Last (· = c!")") (operationMixinMember m) :=
  .seq (.optWord (last_operation _ _ _))

theorem last_operationNamespace (m : OperationNamespaceMember) :
    Last (· = c!")") (operationNamespaceMember m) := .seq (last_operation _ _ _)

theorem last_iterable (m : IterableInterfaceMember) : Last (· = c!">") (iterableInterfaceMember m) := by
  cases m <;> exact .seq (.seq ends_angles.last)

theorem last_maplike (m : MaplikeInterfaceMember) : Last (· = c!">") (maplikeInterfaceMember m) :=
  .seq (.seq (.seq ends_angles.last))

theorem last_setlike (m : SetlikeInterfaceMember) : Last (· = c!">") (setlikeInterfaceMember m) :=
  .seq (.seq (.seq ends_angles.last))

/-! ## Members whose last lexemes differ -/

section
variable (hE : Exact leaf Step)
include hE

theorem Good.head_step {w : Str} {ls : List Str} (hg : Good (w :: ls)) (h : Reads Step m ls r) :
    Solid w ∨ Number w ∧ StopAt Step m := by
  rcases hg.1 with h1 | ⟨h1, p, ls', rfl, hp⟩
  · exact .inl h1
  · cases h with
    | cons h2 _ => exact .inr ⟨h1, hp.at h2⟩

/-- A text is read in one way up to the first `;`. -/
theorem reads_unique {a a' : List Str} {r r' : List σ} (h : Reads Step s (a ++ [c!";"]) r)
    (h' : Reads Step s (a' ++ [c!";"]) r') (hg : Good (a ++ [c!";"])) (hg' : Good (a' ++ [c!";"]))
    (ha : c!";" ∉ a) (ha' : c!";" ∉ a') : a = a' := by
  induction a generalizing a' s with
  | nil =>
    cases a' with
    | nil => rfl
    | cons w' a' =>
      cases h with
      | cons h1 h2 =>
        cases h' with
        | cons h1' h2' =>
          have := hE.uniq h1 h1' (hg.head_step hE h2) (hg'.head_step hE h2')
          simp [← this] at ha'
  | cons w a ih =>
    cases a' with
    | nil =>
      cases h with
      | cons h1 h2 =>
        cases h' with
        | cons h1' h2' =>
          have := hE.uniq h1 h1' (hg.head_step hE h2) (hg'.head_step hE h2')
          simp [this] at ha
    | cons w' a' =>
      cases h with
      | cons h1 h2 =>
        cases h' with
        | cons h1' h2' =>
          obtain rfl := hE.uniq h1 h1' (hg.head_step hE h2) (hg'.head_step hE h2')
          obtain rfl := hE.det h1 h1'
          simp only [List.mem_cons, not_or] at ha ha'
          rw [ih h2 h2' hg.2 hg'.2 ha.2 ha'.2]

theorem ko_of_not_ok {g : G α} {b : Bool} (hg : Guarded true g b) (h : ∀ r a, ¬ Ok leaf g s r a) :
    Ko leaf g s := by
  have h1 := parseWith_fine hE.fine hg s
  cases h2 : g.parseWith leaf s with
  | ok r a => exact absurd h2 (h r a)
  | err e =>
    rw [h2] at h1
    cases e with
    | error p k => exact ⟨p, k, h2⟩
    | failure => exact h1.elim
    | incomplete => exact h1.elim
  | diverge => rw [h2] at h1; exact h1.elim

/-- A member whose last lexeme cannot be that of what follows is not read. -/
theorem ko_ending {A : Lang} {P Q : Str → Prop} {ls : List Str} {g : G α} {L : α → Lang} {b : Bool}
    (hg : Guarded true g b)
    (hs : SndAt leaf Step (ntLim leaf) g s (fun a ls _ => L a ls)) (hc : ∀ a, Closed (L a))
    (hQ : ∀ a, Last Q (L a)) (hA : Closed A) (hP : Last P A) (hl : A ls) (hr : Reads Step s ls r)
    (hd : ∀ w, P w → ¬ Q w) : Ko leaf g s := by
  refine ko_of_not_ok hE hg fun r' a h => ?_
  obtain ⟨ls', h1, h2⟩ := hs r' a h
  obtain ⟨a1, e1, g1, n1⟩ := hA ls hl
  obtain ⟨a2, e2, g2, n2⟩ := hc a ls' h2
  obtain ⟨c1, w1, f1, p1⟩ := hP ls hl
  obtain ⟨c2, w2, f2, p2⟩ := hQ a ls' h2
  rw [e1] at hr g1
  rw [e2] at h1 g2
  have e := reads_unique hE hr h1 g1 g2 n1 n2
  have : c1 ++ [w1, c!";"] = c2 ++ [w2, c!";"] := by rw [← f1, ← f2, e1, e2, e]
  have : (c1 ++ [w1]) ++ [c!";"] = (c2 ++ [w2]) ++ [c!";"] := by simpa using this
  have := List.append_inj_left' this rfl
  have := List.append_inj_right' this rfl
  simp at this
  subst this
  exact hd _ p1 p2

/-! ## Parts of members -/

/-- A closed text followed by what the parsers for it need. -/
theorem semi_stop (h : Step r c!";" n) : StopAt Step r := closer_stop hE (by decide) h

theorem okArgs {as : List Argument} (h : RL Step (argumentList as) s r) :
    Ok leaf (G.parenthesized G.argumentList) s r as := by
  obtain ⟨m1, h1, m2, h2, h3⟩ := rl_parens.1 h
  exact okParens hE h1 (okCommaList hE (guarded_call _) (ok_arguments hE as h2 h3)
    (koPunct hE (solid_punct (p := .closeParen) (by decide) (by decide)) h3 (by decide))
    (koCall hE (dead_punct hE (p := .closeParen) h3).argument)) h3

theorem argumentList_step {as : List Argument} (h : RL Step (argumentList as) s r) :
    ∃ m, Step s c!"(" m := by
  obtain ⟨m1, h1, -⟩ := rl_parens.1 h
  exact ⟨m1, h1⟩

theorem okNamedAttributed {t : AttributedType} {i : Str} (h : RL Step (namedAttributed t i) s r) :
    ∃ m, Ok leaf G.attributedType s m t ∧ Ok leaf G.ident m r i := by
  obtain ⟨as, t⟩ := t
  simp only [namedAttributed] at h
  obtain ⟨m, ⟨l, h1, h1'⟩, ⟨l', h2, h2'⟩⟩ := rl_seq.1 h
  obtain ⟨a, w, m5, h7, h8, h9, h10, h11⟩ := named_split hE h2 h2'
  exact ⟨m5, .bind (ok_attributes hE as h1 h1' fun _ => type_notBracket hE h7 h8)
    (.bind (ok_type hE t h7 h8 h9) .pure), okIdent hE h10 h11⟩

theorem okAttributed {t : AttributedType} (h : RL Step (attributedType t) s r)
    (hf : ∀ ls, TF Step ls r) : Ok leaf G.attributedType s r t := by
  obtain ⟨as, t⟩ := t
  simp only [attributedType] at h
  obtain ⟨m, ⟨l, h1, h1'⟩, ⟨l', h2, h2'⟩⟩ := rl_seq.1 h
  exact .bind (ok_attributes hE as h1 h1' fun _ => type_notBracket hE h2 h2')
    (.bind (ok_type hE t h2 h2' (hf _)) .pure)

theorem okTypePair {p : AttributedType × AttributedType} (h : RL Step (typePair p) s r)
    (hf : ∀ ls, TF Step ls r) : Ok leaf G.attributedTypePair s r p := by
  obtain ⟨m, h1, h2⟩ := rl_seq.1 h
  obtain ⟨n, h2, h3⟩ := rl_seq.1 h2
  have h2 := rl_comma.1 h2
  exact .bind (okAttributed hE h1 fun _ => tf_punct hE (p := .comma) h2)
    (.bind (okPunct hE (p := .comma) h2) (.bind (okAttributed hE h3 hf) .pure))

theorem okReturnType {t : ReturnType} {ls : List Str} (h : returnType t ls) (hr : Reads Step s ls r)
    (hf : TF Step ls r) : Ok leaf G.returnType s r t := by
  cases t with
  | undefined =>
    simp only [returnType] at h
    exact .here (okKwAs hE (k := .undefined) (rl_tok.1 (hr.rl h)))
  | type t =>
    simp only [returnType] at h
    obtain ⟨h1, h2⟩ := h
    obtain ⟨w, ls', hl, h3⟩ := solid_type_head hE h1
    have h4 := avoid_notNext hE hl h3 (solid_kw .undefined) hr (h2 _ (by simp [Kw.text]))
    exact .next (.kwAs (koKw_of hE (k := .undefined) h4)) (.here (.variant (ok_type hE t h1 hr hf)))

theorem okReturnNamed {t : ReturnType} {i : Option Str} (h : RL Step (returnNamed t i) s r)
    (hp : Step r c!"(" n) : ∃ m, Ok leaf G.returnType s m t ∧ Ok leaf (.opt G.ident) m r i := by
  obtain ⟨ls, h, hr⟩ := h
  cases i with
  | none =>
    exact ⟨r, okReturnType hE h hr (tf_punct hE (p := .openParen) hp),
      .none (dull_punct hE (p := .openParen) hp).ident⟩
  | some i =>
    obtain ⟨a, w, m, h7, h8, h9, h10, h11⟩ := named_split hE h hr
    exact ⟨m, okReturnType hE h7 h8 h9, .some (okIdent hE h10 h11)⟩

omit hE in
/-- A text that begins with a word or `(`. -/
def Headed (ls : List Str) : Prop := ∃ w ls', ls = w :: ls' ∧ (w = c!"(" ∨ ∃ i, name i [w])

omit hE in
theorem Headed.append {ls : List Str} (h : Headed ls) (b : List Str) : Headed (ls ++ b) := by
  obtain ⟨w, ls', rfl, h⟩ := h
  exact ⟨w, ls' ++ b, rfl, h⟩

omit hE in
theorem Headed.kw (k : Kw) (ls : List Str) (h : k ≠ .negInfinity := by decide) : Headed (k.text :: ls) :=
  ⟨_, _, rfl, .inr ⟨_, word_kw k h⟩⟩

omit hE in
theorem headed_returnType {t : ReturnType} {ls : List Str} (h : returnType t ls) : Headed ls := by
  cases t with
  | undefined =>
    simp only [returnType] at h
    cases h
    exact .kw .undefined []
  | type t =>
    simp only [returnType] at h
    exact type_head h.1

omit hE in
theorem headed_returnNamed {t : ReturnType} {i : Option Str} {ls : List Str} (h : returnNamed t i ls) :
    Headed ls := by
  cases i with
  | none => exact headed_returnType h
  | some i =>
    obtain ⟨a, b, rfl, h, -⟩ := h
    exact (headed_returnType h).append b

omit hE in
theorem headed_operation {t : ReturnType} {i : Option Str} {B : Lang} {ls : List Str}
    (h : (returnNamed t i ⨾ B) ls) : Headed ls := by
  obtain ⟨a, b, rfl, h, -⟩ := h
  exact (headed_returnNamed h).append b

omit hE in
theorem headed_specialised {o : Option Special} {A : Lang} (hA : ∀ ls, A ls → Headed ls)
    {ls : List Str} (h : specialised o A ls) : Headed ls := by
  rcases o with _ | o
  · exact hA _ h.1
  · cases o <;> obtain ⟨_, b, rfl, rfl, -⟩ := h
    · exact .kw .getter b
    · exact .kw .setter b
    · exact .kw .deleter b
    · exact .kw .legacyCaller b

omit hE in
theorem headed_modified {o : Option StringifierOrStatic} {A : Lang} (hA : ∀ ls, A ls → Headed ls)
    {ls : List Str} (h : modified o A ls) : Headed ls := by
  rcases o with _ | o
  · exact hA _ h.1
  · cases o <;> obtain ⟨_, b, rfl, rfl, -⟩ := h
    · exact .kw .stringifier b
    · exact .kw .static b

theorem Headed.notBracket {ls : List Str} (h : Headed ls) (hr : Reads Step s ls r) :
    NotNext Step s c!"[" := by
  obtain ⟨w, ls', rfl, h⟩ := h
  cases hr with
  | cons h1 _ => exact Verif.notBracket hE h1 h

theorem Headed.avoid {ls : List Str} {w : Str} (h : Headed ls) (hw : Solid w) (hr : Reads Step s ls r)
    (hn : ¬ [w] <+: ls) : NotNext Step s w := by
  obtain ⟨w', ls', rfl, h⟩ := h
  refine avoid_notNext hE rfl ?_ hw hr hn
  rcases h with rfl | h
  · exact solid_punct (p := .openParen) (by decide) (by decide)
  · exact .inl h

theorem okModifier {o : Option StringifierOrStatic} {A : Lang} (hA : ∀ ls, A ls → Headed ls)
    (h : RL Step (modified o A) s r) :
    ∃ m, Ok leaf (.opt G.stringifierOrStatic) s m o ∧ RL Step A m r := by
  rcases o with _ | o
  · obtain ⟨ls, ⟨h, hn⟩, hr⟩ := h
    exact ⟨s, .none (.altsCons (.kwAs (koKw_of hE (k := .stringifier)
        ((hA _ h).avoid hE (solid_kw .stringifier) hr (hn _ (by simp [Kw.text]))))) <|
      .altsCons (.kwAs (koKw_of hE (k := .static)
        ((hA _ h).avoid hE (solid_kw .static) hr (hn _ (by simp [Kw.text]))))) .altsNil), ls, h, hr⟩
  · cases o <;> obtain ⟨m, h1, h2⟩ := rl_seq.1 h <;> refine ⟨m, .some ?_, h2⟩
    · exact .here (okKwAs hE (k := .stringifier) (rl_tok.1 h1))
    · exact .next (.kwAs (koKw' hE (k := .static) (rl_tok.1 h1)))
        (.here (okKwAs hE (k := .static) (rl_tok.1 h1)))

theorem okSpecial {o : Option Special} {A : Lang} (hA : ∀ ls, A ls → Headed ls)
    (h : RL Step (specialised o A) s r) :
    ∃ m, Ok leaf (.opt G.special) s m o ∧ RL Step A m r := by
  rcases o with _ | o
  · obtain ⟨ls, ⟨h, hn⟩, hr⟩ := h
    have k : ∀ k ∈ [Kw.getter, .setter, .deleter, .legacyCaller], Ko leaf (G.kw k) s := fun k hk =>
      koKw_of hE ((hA _ h).avoid hE (solid_kw k) hr (hn _ (by
        simp at hk; rcases hk with rfl | rfl | rfl | rfl <;> decide)))
    exact ⟨s, .none (.altsCons (.kwAs (k _ (by decide))) <| .altsCons (.kwAs (k _ (by decide))) <|
      .altsCons (.kwAs (k _ (by decide))) <| .altsCons (.kwAs (k _ (by decide))) .altsNil), ls, h, hr⟩
  · cases o <;> obtain ⟨m, h1, h2⟩ := rl_seq.1 h <;> have h1 := rl_tok.1 h1 <;> refine ⟨m, .some ?_, h2⟩
    · exact .here (okKwAs hE (k := .getter) h1)
    · exact .next (.kwAs (koKw' hE (k := .setter) h1)) (.here (okKwAs hE (k := .setter) h1))
    · exact .next (.kwAs (koKw' hE (k := .deleter) h1)) <| .next (.kwAs (koKw' hE (k := .deleter) h1))
        (.here (okKwAs hE (k := .deleter) h1))
    · exact .next (.kwAs (koKw' hE (k := .legacyCaller) h1)) <|
        .next (.kwAs (koKw' hE (k := .legacyCaller) h1)) <| .next (.kwAs (koKw' hE (k := .legacyCaller) h1))
        (.here (okKwAs hE (k := .legacyCaller) h1))

/-- The attributes in front of a keyword. -/
theorem okAttrsKw {as : Attrs} {k : Kw} (h : RL Step (attributes as) s m) (h' : Step m k.text n)
    (hk : k ≠ .negInfinity := by decide) : Ok leaf G.attrs s m as := by
  obtain ⟨l, h1, h2⟩ := h
  exact ok_attributes hE as h1 h2 fun _ => notBracket hE h' (.inr ⟨_, word_kw k hk⟩)

theorem okSemi (h : Step s c!";" r) : Ok leaf (G.punct .semiColon) s r () := okPunct hE (p := .semiColon) h

theorem ntSound_exact : NtSound leaf Step (ntLim leaf) := ntSound_lim hE.toStepping

/-! ## Members -/

theorem okConstType {t : ConstType} {ls : List Str} (h : constType t ls) (hr : Reads Step s ls r)
    (hf : TF Step ls r) : Ok leaf G.constType s r t := by
  have kw : ∀ (k : Kw) (q : Bool), RL Step (tok k.text ⨾ optTok q c!"?") s r →
      ∃ n, Step s k.text n ∧ RL Step (optTok q c!"?") n r := by
    intro k q h
    obtain ⟨n, h1, h2⟩ := rl_seq.1 h
    exact ⟨n, rl_tok.1 h1, h2⟩
  have ki : ∀ {k : Kw} {n}, Step s k.text n → k ∉ [Kw.unsigned, .long, .short] → Ko leaf G.integerType s :=
    fun h h' => .integerType (koKw' hE h (by rintro rfl; simp at h')) (koKw' hE h (by rintro rfl; simp at h'))
      (koKw' hE h (by rintro rfl; simp at h'))
  have kf : ∀ {k : Kw} {n}, Step s k.text n → k ∉ [Kw.unrestricted, .float, .double] →
      Ko leaf G.floatingPointType s :=
    fun h h' => .floatingPointType (koKw' hE h (by rintro rfl; simp at h'))
      (koKw' hE h (by rintro rfl; simp at h')) (koKw' hE h (by rintro rfl; simp at h'))
  cases t with
  | integer t q => exact .here (okIntegerType hE h hr hf)
  | floatingPoint t q =>
    obtain ⟨k, ls', hl, hk⟩ := floating_head hE h
    have hr' := hr
    rw [hl] at hr'
    cases hr' with
    | cons h1 h2 =>
      refine .next (.mayBeNull (ki h1 ?_)) (.here (okFloatingType hE h hr hf))
      simp at hk
      rcases hk with rfl | rfl | rfl <;> decide
  | boolean q =>
    obtain ⟨n, h1, h2⟩ := kw .boolean q (hr.rl h)
    exact .next (.mayBeNull (ki h1 (by decide))) <| .next (.mayBeNull (kf h1 (by decide))) <|
      .here (okNull hE (f := fun _ q => ConstType.boolean q) (okKw hE h1) h2 hf.2.1)
  | byte q =>
    obtain ⟨n, h1, h2⟩ := kw .byte q (hr.rl h)
    exact .next (.mayBeNull (ki h1 (by decide))) <| .next (.mayBeNull (kf h1 (by decide))) <|
      .next (.mayBeNull (koKw' hE h1)) <|
      .here (okNull hE (f := fun _ q => ConstType.byte q) (okKw hE h1) h2 hf.2.1)
  | octet q =>
    obtain ⟨n, h1, h2⟩ := kw .octet q (hr.rl h)
    exact .next (.mayBeNull (ki h1 (by decide))) <| .next (.mayBeNull (kf h1 (by decide))) <|
      .next (.mayBeNull (koKw' hE h1)) <| .next (.mayBeNull (koKw' hE h1)) <|
      .here (okNull hE (f := fun _ q => ConstType.octet q) (okKw hE h1) h2 hf.2.1)
  | identifier i q =>
    obtain ⟨a, b, rfl, ⟨h1, h2⟩, h3⟩ := h
    obtain ⟨m, h4, h5⟩ := hr.split
    have nk : ∀ w ∈ [c!"long", c!"short", c!"float", c!"double", c!"boolean", c!"byte", c!"octet"],
        ∀ v, w ≠ '_' :: v := by
      intro w hw v
      simp at hw
      rintro rfl
      simp at hw
    obtain ⟨w, rfl, hw, hn⟩ : ∃ w, a = [w] ∧ name i [w] ∧
        w ∉ [c!"long", c!"short", c!"float", c!"double", c!"boolean", c!"byte", c!"octet"] := by
      rcases h2 with ⟨rfl, h2⟩ | rfl
      · exact ⟨_, rfl, ⟨h1, .inl rfl⟩, h2⟩
      · exact ⟨_, rfl, ⟨h1, .inr rfl⟩, fun h => nk _ h _ rfl⟩
    have h4 := reads_one.1 h4
    have hs : Solid w := .inl ⟨i, hw⟩
    have h6 := tf_inner hE hf h5 h3
    have nj : ∀ {k : Kw} {w' : Str}, [k.text, w'] ∈ twoWordTypes → w = k.text → NotNext Step m w' := by
      rintro k w' h7 rfl r' h8
      exact h6 w' r' h8 (by simpa using h7)
    simp only [List.mem_cons, not_or] at hn
    obtain ⟨n1, n2, n3, n4, n5, n6, n7, -⟩ := hn
    exact .next (.mayBeNull (koInteger hE hs h4 n1 n2 fun e =>
        ⟨nj (k := .unsigned) (by decide) e, nj (k := .unsigned) (by decide) e⟩)) <|
      .next (.mayBeNull (koFloating hE hs h4 n3 n4 fun e =>
        ⟨nj (k := .unrestricted) (by decide) e, nj (k := .unrestricted) (by decide) e⟩)) <|
      .next (.mayBeNull (koKw hE hs h4 n5)) <| .next (.mayBeNull (koKw hE hs h4 n6)) <|
      .next (.mayBeNull (koKw hE hs h4 n7)) <|
      .here (okNull hE (okIdent hE hw h4) ⟨b, h3, h5⟩ hf.2.1)

theorem okConst {c : ConstMember} (h : RL Step (constMember c) s r) : Ok leaf G.constMember s r c := by
  obtain ⟨m1, h1, h⟩ := rl_seq.1 h
  obtain ⟨m2, h2, h⟩ := rl_seq.1 h
  obtain ⟨m3, ⟨l, h3, h3'⟩, h⟩ := rl_seq.1 h
  obtain ⟨m4, h4, h⟩ := rl_seq.1 h
  obtain ⟨m5, h5, h6⟩ := rl_seq.1 h
  have h2 := rl_tok.1 h2
  have h6 := rl_tok.1 h6
  obtain ⟨a, w, m, h7, h8, h9, h10, h11⟩ := named_split hE h3 h3'
  exact .bind (okAttrsKw hE (k := .const) h1 h2) (.bind (okKw hE (k := .const) h2)
    (.bind (okConstType hE h7 h8 h9) (.bind (okIdent hE h10 h11)
    (.bind (okPunct hE (p := .assign) (rl_tok.1 h4)) (.bind (okConstValue hE h5 (semi_stop hE h6))
    (.bind (okSemi hE h6) .pure))))))

theorem okAttributeTail {ro : Bool} {t : AttributedType} {i : Str}
    (h : RL Step (optTok ro c!"readonly" ⨾ tok c!"attribute" ⨾ namedAttributed t i ⨾ tok c!";") s r) :
    (∃ k ∈ [Kw.readOnly, .attribute], ∃ n, Step s k.text n) ∧
    ∃ m1 m2 m3 m4, Ok leaf (G.optKw .readOnly) s m1 ro ∧ Ok leaf (G.kw .attribute) m1 m2 () ∧
      Ok leaf G.attributedType m2 m3 t ∧ Ok leaf G.ident m3 m4 i ∧
      Ok leaf (G.punct .semiColon) m4 r () := by
  obtain ⟨m1, h1, h⟩ := rl_seq.1 h
  obtain ⟨m2, h2, h⟩ := rl_seq.1 h
  obtain ⟨m3, h3, h4⟩ := rl_seq.1 h
  have h2 := rl_tok.1 h2
  obtain ⟨m', h5, h6⟩ := okNamedAttributed hE h3
  refine ⟨?_, m1, m2, m', m3, okOptKw hE h1 ?_, okKw hE (k := .attribute) h2, h5, h6, okSemi hE (rl_tok.1 h4)⟩
  · cases ro with
    | true => exact ⟨.readOnly, by decide, m1, rl_tok.1 h1⟩
    | false => cases rl_eps.1 h1; exact ⟨.attribute, by decide, m2, h2⟩
  · rintro rfl
    cases rl_eps.1 h1
    exact notNext_kw hE (k := .attribute) h2

theorem okAttributeInterface {a : AttributeInterfaceMember} (h : RL Step (attributeInterfaceMember a) s r) :
    Ok leaf G.attributeInterfaceMember s r a ∧ Ko leaf G.constMember s := by
  obtain ⟨as, mo, ro, t, i⟩ := a
  obtain ⟨m1, h1, h⟩ := rl_seq.1 h
  obtain ⟨m2, h2, h⟩ := rl_seq.1 h
  dsimp only at h1 h2 h
  obtain ⟨⟨k, hk, n, hk'⟩, m3, m4, m5, m6, h3, h4, h5, h6, h7⟩ := okAttributeTail hE h
  obtain ⟨ho, k', n', hk2, hk2'⟩ : Ok leaf (.opt G.stringifierOrInheritOrStatic) m1 m2 mo ∧
      ∃ k n, k ∈ [Kw.readOnly, .attribute, .stringifier, .inherit, .static] ∧ Step m1 k.text n := by
    rcases mo with _ | mo
    · cases rl_eps.1 h2
      have ne : ∀ k', k' ∉ [Kw.readOnly, .attribute] → Ko leaf (G.kw k') m1 := fun k' h =>
        koKw' hE hk' (by rintro rfl; exact h hk)
      exact ⟨.none (.altsCons (.kwAs (ne _ (by decide))) <| .altsCons (.kwAs (ne _ (by decide))) <|
        .altsCons (.kwAs (ne _ (by decide))) .altsNil), k, n, by simp at hk ⊢; grind, hk'⟩
    · cases mo
      · have h2 := rl_tok.1 h2
        exact ⟨.some (.here (okKwAs hE (k := .stringifier) h2)), .stringifier, _, by decide, h2⟩
      · have h2 := rl_tok.1 h2
        exact ⟨.some (.next (.kwAs (koKw' hE (k := .inherit) h2)) (.here (okKwAs hE (k := .inherit) h2))),
          .inherit, _, by decide, h2⟩
      · have h2 := rl_tok.1 h2
        exact ⟨.some (.next (.kwAs (koKw' hE (k := .static) h2)) <| .next (.kwAs (koKw' hE (k := .static) h2))
          (.here (okKwAs hE (k := .static) h2))), .static, _, by decide, h2⟩
  have ha := okAttrsKw hE h1 hk2' (by rintro rfl; revert hk2; decide)
  exact ⟨.bind ha (.bind ho (.bind h3 (.bind h4 (.bind h5 (.bind h6 (.bind h7 .pure)))))),
    .right ha (.left (koKw' hE hk2' (by rintro rfl; revert hk2; decide)))⟩

theorem okConstructor {c : ConstructorInterfaceMember} (h : RL Step (constructorInterfaceMember c) s r) :
    Ok leaf G.constructorInterfaceMember s r c ∧ Ko leaf G.constMember s ∧
      Ko leaf G.attributeInterfaceMember s := by
  obtain ⟨m1, h1, h⟩ := rl_seq.1 h
  obtain ⟨m2, h2, h⟩ := rl_seq.1 h
  obtain ⟨m3, h3, h4⟩ := rl_seq.1 h
  have h2 := rl_tok.1 h2
  have ha := okAttrsKw hE (k := .constructor) h1 h2
  have k : ∀ k, k ≠ .constructor → Ko leaf (G.kw k) m1 := fun k hk => koKw' hE (k := .constructor) h2 (Ne.symm hk)
  exact ⟨.bind ha (.bind (okKw hE (k := .constructor) h2) (.bind (okArgs hE h3)
      (.bind (okSemi hE (rl_tok.1 h4)) .pure))), .right ha (.left (k _ (by decide))),
    .right ha (.right (.none (.altsCons (.kwAs (k _ (by decide))) <| .altsCons (.kwAs (k _ (by decide))) <|
      .altsCons (.kwAs (k _ (by decide))) .altsNil)) (.right (.optKwF (k _ (by decide))) (.left (k _ (by decide)))))⟩

theorem okOperationTail {t : ReturnType} {i : Option Str} {as : List Argument}
    (h : RL Step (returnNamed t i ⨾ argumentList as ⨾ tok c!";") s r) :
    ∃ m1 m2 m3, Ok leaf G.returnType s m1 t ∧ Ok leaf (.opt G.ident) m1 m2 i ∧
      Ok leaf (G.parenthesized G.argumentList) m2 m3 as ∧ Ok leaf (G.punct .semiColon) m3 r () := by
  obtain ⟨m1, h1, h⟩ := rl_seq.1 h
  obtain ⟨m2, h2, h3⟩ := rl_seq.1 h
  obtain ⟨n, hp⟩ := argumentList_step hE h2
  obtain ⟨m, h4, h5⟩ := okReturnNamed hE h1 hp
  exact ⟨m, m1, m2, h4, h5, okArgs hE h2, okSemi hE (rl_tok.1 h3)⟩

theorem okOperationInterface {o : OperationInterfaceMember} (h : RL Step (operationInterfaceMember o) s r) :
    Ok leaf G.operationInterfaceMember s r o ∧ Ko leaf G.constructorInterfaceMember s := by
  obtain ⟨as, mo, sp, t, i, args⟩ := o
  obtain ⟨m1, ⟨la, h1, h1'⟩, ⟨ls, ⟨h2, h3⟩, hr⟩⟩ := rl_seq.1 h
  dsimp only at h1 h2
  have hA : ∀ ls, (returnNamed t i ⨾ argumentList args ⨾ tok c!";") ls → Headed ls :=
    fun ls h => headed_operation h
  have hB : ∀ ls, specialised sp (returnNamed t i ⨾ argumentList args ⨾ tok c!";") ls → Headed ls :=
    fun ls h => headed_specialised hA h
  have hC := headed_modified hB h2
  have ha := ok_attributes hE as h1 h1' fun _ => hC.notBracket hE hr
  obtain ⟨m2, h4, h5⟩ := okModifier hE hB ⟨ls, h2, hr⟩
  obtain ⟨m3, h6, h7⟩ := okSpecial hE hA h5
  obtain ⟨m4, m5, m6, h8, h9, h10, h11⟩ := okOperationTail hE h7
  refine ⟨.bind ha (.bind h4 (.bind h6 (.bind h8 (.bind h9 (.bind h10 (.bind h11 .pure)))))), .right ha ?_⟩
  obtain ⟨a, e1, g1, n1⟩ := Closed.modified (m := mo) (Closed.specialised (m := sp) (closed_operation t i args)) ls h2
  obtain ⟨w, ls', rfl, hw⟩ := hC
  have hw : Solid w := by
    rcases hw with rfl | hw
    · exact solid_punct (p := .openParen) (by decide) (by decide)
    · exact .inl hw
  cases hr with
  | cons r1 r2 =>
    by_cases he : w = c!"constructor"
    · subst he
      refine .right (okKw hE (k := .constructor) r1) (.left (.left (koPunct_of hE (k := .openParen) ?_)))
      intro q hq
      have h12 := h3 _ (List.mem_singleton.2 rfl)
      cases r2 with
      | nil => cases a <;> simp at e1
      | cons r3 r4 =>
        have := hE.uniq r3 hq (g1.2.head_step hE r4) (.inl (solid_punct (p := .openParen) (by decide) (by decide)))
        subst this
        exact h12 (by simp [Punct.text])
    · exact .left (koKw hE (k := .constructor) hw r1 he)


/-! ## Interface members with type parameters -/

/-- The parameters of `iterable<T>` and the like: one type, not two. -/
theorem okAngles1 {t : AttributedType} (h : RL Step (angles (attributedType t)) s r) :
    Ok leaf (G.generics G.attributedType) s r t := by
  obtain ⟨m1, h1, m2, h2, h3⟩ := rl_angles.1 h
  exact okAngles hE h1 (okAttributed hE h2 fun _ => tf_punct hE (p := .greaterThan) h3) h3

theorem okAngles2 {p : AttributedType × AttributedType} (h : RL Step (angles (typePair p)) s r) :
    Ok leaf (G.generics G.attributedTypePair) s r p ∧ Ko leaf (G.generics G.attributedType) s := by
  obtain ⟨m1, h1, m2, h2, h3⟩ := rl_angles.1 h
  refine ⟨okAngles hE h1 (okTypePair hE h2 fun _ => tf_punct hE (p := .greaterThan) h3) h3, ?_⟩
  obtain ⟨n, h4, h5⟩ := rl_seq.1 h2
  obtain ⟨n', h5, -⟩ := rl_seq.1 h5
  have h5 := rl_comma.1 h5
  exact .right (okPunct hE (p := .lessThan) h1) (.right (okAttributed hE h4 fun _ =>
    tf_punct hE (p := .comma) h5) (.left (koPunct hE (p := .greaterThan)
      (solid_punct (p := .comma) (by decide) (by decide)) h5 (by decide))))

theorem okIterable {i : IterableInterfaceMember} (h : RL Step (iterableInterfaceMember i) s r) :
    Ok leaf G.iterableInterfaceMember s r i ∧
      ∃ as m n, Ok leaf G.attrs s m as ∧ Step m c!"iterable" n := by
  cases i with
  | single as t =>
    obtain ⟨m1, h1, h⟩ := rl_seq.1 h
    obtain ⟨m2, h2, h⟩ := rl_seq.1 h
    obtain ⟨m3, h3, h4⟩ := rl_seq.1 h
    have h2 := rl_tok.1 h2
    have ha := okAttrsKw hE (k := .iterable) h1 h2
    exact ⟨.here (.bind ha (.bind (okKw hE (k := .iterable) h2) (.bind (okAngles1 hE h3)
      (.bind (okSemi hE (rl_tok.1 h4)) .pure)))), as, m1, m2, ha, h2⟩
  | double as t =>
    obtain ⟨m1, h1, h⟩ := rl_seq.1 h
    obtain ⟨m2, h2, h⟩ := rl_seq.1 h
    obtain ⟨m3, h3, h4⟩ := rl_seq.1 h
    have h2 := rl_tok.1 h2
    have ha := okAttrsKw hE (k := .iterable) h1 h2
    have hk := okKw hE (k := .iterable) h2
    have hg := okAngles2 hE h3
    exact ⟨.next (.right ha (.right hk (.left hg.2))) (.here (.bind ha (.bind hk (.bind hg.1
      (.bind (okSemi hE (rl_tok.1 h4)) .pure))))), as, m1, m2, ha, h2⟩

theorem okOptArgs {as : Option (List Argument)} (h : RL Step (optArgumentList as) s r)
    (hs : Step r c!";" n) : Ok leaf (.opt (G.parenthesized G.argumentList)) s r as := by
  cases as with
  | none =>
    cases rl_eps.1 h
    exact .none (.left (koPunct hE (solid_punct (p := .semiColon) (by decide) (by decide)) hs (by decide)))
  | some as => exact .some (okArgs hE h)

theorem okAsyncIterable {i : AsyncIterableInterfaceMember} (h : RL Step (asyncIterableInterfaceMember i) s r) :
    Ok leaf G.asyncIterableInterfaceMember s r i ∧
      ∃ as m n n' q, Ok leaf G.attrs s m as ∧ Step m c!"async" n ∧ Step n c!"iterable" n' ∧ Step n' c!"<" q := by
  cases i with
  | single as t args =>
    obtain ⟨m1, h1, h⟩ := rl_seq.1 h
    obtain ⟨m2, h2, h⟩ := rl_seq.1 h
    obtain ⟨m3, h3, h⟩ := rl_seq.1 h
    obtain ⟨m4, h4, h⟩ := rl_seq.1 h
    obtain ⟨m5, h5, h6⟩ := rl_seq.1 h
    have h2 := rl_tok.1 h2
    have h3 := rl_tok.1 h3
    have h6 := rl_tok.1 h6
    have ha := okAttrsKw hE (k := .async) h1 h2
    obtain ⟨q, hq, -⟩ := rl_angles.1 h4
    exact ⟨.here (.bind ha (.bind (okKw hE (k := .async) h2) (.bind (okKw hE (k := .iterable) h3)
      (.bind (okAngles1 hE h4) (.bind (okOptArgs hE h5 h6)
      (.bind (okSemi hE h6) .pure)))))), as, m1, m2, m3, q, ha, h2, h3, hq⟩
  | double as t args =>
    obtain ⟨m1, h1, h⟩ := rl_seq.1 h
    obtain ⟨m2, h2, h⟩ := rl_seq.1 h
    obtain ⟨m3, h3, h⟩ := rl_seq.1 h
    obtain ⟨m4, h4, h⟩ := rl_seq.1 h
    obtain ⟨m5, h5, h6⟩ := rl_seq.1 h
    have h2 := rl_tok.1 h2
    have h3 := rl_tok.1 h3
    have h6 := rl_tok.1 h6
    have ha := okAttrsKw hE (k := .async) h1 h2
    obtain ⟨q, hq, -⟩ := rl_angles.1 h4
    have k2 := okKw hE (k := .async) h2
    have k3 := okKw hE (k := .iterable) h3
    have hg := okAngles2 hE h4
    exact ⟨.next (.right ha (.right k2 (.right k3 (.left hg.2)))) (.here (.bind ha (.bind k2 (.bind k3
      (.bind hg.1 (.bind (okOptArgs hE h5 h6) (.bind (okSemi hE h6) .pure))))))),
      as, m1, m2, m3, q, ha, h2, h3, hq⟩

/-- Attributes, then an optional `readonly`, then a keyword. -/
theorem okReadonlyKw {as : Attrs} {ro : Bool} {k : Kw} (hk : k = .maplike ∨ k = .setlike)
    (h1 : RL Step (attributes as) s m) (h2 : RL Step (optTok ro c!"readonly") m n) (h3 : Step n k.text r) :
    Ok leaf G.attrs s m as ∧ Ok leaf (G.optKw .readOnly) m n ro ∧
      ∃ k' r', (k' = .readOnly ∨ k' = k) ∧ Step m (Kw.text k') r' := by
  have hk' : k ≠ .negInfinity ∧ k ≠ .readOnly := by rcases hk with rfl | rfl <;> decide
  cases ro with
  | true =>
    have h2 := rl_tok.1 h2
    exact ⟨okAttrsKw hE (k := .readOnly) h1 h2, .optKwT (okKw hE (k := .readOnly) h2), _, _, .inl rfl, h2⟩
  | false =>
    cases rl_eps.1 h2
    exact ⟨okAttrsKw hE h1 h3 hk'.1, .optKwF (koKw' hE h3 hk'.2), _, _, .inr rfl, h3⟩

theorem okMaplike {i : MaplikeInterfaceMember} (h : RL Step (maplikeInterfaceMember i) s r) :
    Ok leaf G.maplikeInterfaceMember s r i ∧ ∃ as m k n, Ok leaf G.attrs s m as ∧ 
      (k = .readOnly ∨ k = .maplike) ∧ Step m (Kw.text k) n := by
  obtain ⟨as, ro, g⟩ := i
  obtain ⟨m1, h1, h⟩ := rl_seq.1 h
  obtain ⟨m2, h2, h⟩ := rl_seq.1 h
  obtain ⟨m3, h3, h⟩ := rl_seq.1 h
  obtain ⟨m4, h4, h5⟩ := rl_seq.1 h
  have h3 := rl_tok.1 h3
  obtain ⟨ha, hr, k, n, hk, hn⟩ := okReadonlyKw hE (k := .maplike) (.inl rfl) h1 h2 h3
  exact ⟨.bind ha (.bind hr (.bind (okKw hE (k := .maplike) h3) (.bind (okAngles2 hE h4).1
    (.bind (okSemi hE (rl_tok.1 h5)) .pure)))), as, m1, k, n, ha, hk, hn⟩

theorem okSetlike {i : SetlikeInterfaceMember} (h : RL Step (setlikeInterfaceMember i) s r) :
    Ok leaf G.setlikeInterfaceMember s r i ∧ Ko leaf G.maplikeInterfaceMember s ∧
      ∃ as m k n, Ok leaf G.attrs s m as ∧ (k = .readOnly ∨ k = .setlike) ∧ Step m (Kw.text k) n := by
  obtain ⟨as, ro, g⟩ := i
  obtain ⟨m1, h1, h⟩ := rl_seq.1 h
  obtain ⟨m2, h2, h⟩ := rl_seq.1 h
  obtain ⟨m3, h3, h⟩ := rl_seq.1 h
  obtain ⟨m4, h4, h5⟩ := rl_seq.1 h
  have h3 := rl_tok.1 h3
  obtain ⟨ha, hr, k, n, hk, hn⟩ := okReadonlyKw hE (k := .setlike) (.inr rfl) h1 h2 h3
  exact ⟨.bind ha (.bind hr (.bind (okKw hE (k := .setlike) h3) (.bind (okAngles1 hE h4)
    (.bind (okSemi hE (rl_tok.1 h5)) .pure)))),
    .right ha (.right hr (.left (koKw' hE (k := .setlike) h3))), as, m1, k, n, ha, hk, hn⟩

theorem okStringifierMember {i : StringifierMember} (h : RL Step (stringifierMember i) s r) :
    Ok leaf G.stringifierMember s r i ∧ ∃ as m n q, Ok leaf G.attrs s m as ∧ Step m c!"stringifier" n ∧
      Step n c!";" q := by
  obtain ⟨m1, h1, h⟩ := rl_seq.1 h
  obtain ⟨m2, h2, h3⟩ := rl_seq.1 h
  have h2 := rl_tok.1 h2
  have h3 := rl_tok.1 h3
  have ha := okAttrsKw hE (k := .stringifier) h1 h2
  exact ⟨.bind ha (.bind (okKw hE (k := .stringifier) h2) (.bind (okSemi hE h3) .pure)),
    _, m1, m2, r, ha, h2, h3⟩

/-! ## All members -/

theorem ok_interfaceMember (i : InterfaceMember) (h : RL Step (interfaceMember i) s r) :
    Ok leaf G.interfaceMember s r i := by
  have hS := hE.toStepping
  have hN := ntSound_exact hE
  have gc : Guarded true G.constMember true := inferInstance
  have ga : Guarded true G.attributeInterfaceMember true := inferInstance
  have go : Guarded true G.operationInterfaceMember true := inferInstance
  have kc : ∀ {A : Lang} {P : Str → Prop} {ls : List Str}, Closed A → Last P A → A ls →
      Reads Step s ls r → (∀ w, P w → ¬ Open w) → Ko leaf G.constMember s := fun h1 h2 h3 h4 h5 =>
    ko_ending hE gc (snd_constMember hS hN s) closed_constMember last_const h1 h2 h3 h4 h5
  have ka : ∀ {A : Lang} {P : Str → Prop} {ls : List Str}, Closed A → Last P A → A ls →
      Reads Step s ls r → (∀ w, P w → ¬ Open w) → Ko leaf G.attributeInterfaceMember s := fun h1 h2 h3 h4 h5 =>
    ko_ending hE ga (snd_attributeInterfaceMember hS hN s) closed_attributeInterfaceMember
      last_attributeInterface h1 h2 h3 h4 h5
  have ko : ∀ {A : Lang} {P : Str → Prop} {ls : List Str}, Ko leaf G.constructorInterfaceMember s →
      Closed A → Last P A → A ls →
      Reads Step s ls r → (∀ w, P w → ¬ w = c!")") → Ko leaf G.operationInterfaceMember s :=
    fun h0 h1 h2 h3 h4 h5 =>
    ko_ending hE go (sndAt_operationInterfaceMember hS hN h0) closed_operationInterfaceMember
      last_operationInterface h1 h2 h3 h4 h5
  have e1 : ∀ w, w = c!")" → ¬ Open w := by rintro w rfl h; exact h.1 rfl
  have e2 : ∀ w, w = c!">" → ¬ Open w := by rintro w rfl h; exact h.2 rfl
  have e3 : ∀ w, w = c!">" → ¬ w = c!")" := by rintro w rfl; decide
  -- the alternatives that begin with a keyword
  have first : ∀ {as : Attrs} {m n : List σ} {k k' : Kw} {α : Type} {f : Attrs → Unit → G α},
      Ok leaf G.attrs s m as → Step m k.text n → k ≠ k' → Ko leaf (G.attrs >>= fun as => G.kw k' >>= f as) s :=
    fun ha hk hne => .right ha (.left (koKw' hE hk hne))
  cases i with
  | const c => exact .here (.variant (okConst hE h))
  | «attribute» a =>
    have := okAttributeInterface hE h
    exact .next (.variant this.2) (.here (.variant this.1))
  | constructor c =>
    have := okConstructor hE h
    exact .next (.variant this.2.1) (.next (.variant this.2.2) (.here (.variant this.1)))
  | operation o =>
    have := okOperationInterface hE h
    obtain ⟨ls, h1, h2⟩ := h
    have c := closed_operationInterfaceMember o
    have l := last_operationInterface o
    exact .next (.variant (kc c l h1 h2 e1)) (.next (.variant (ka c l h1 h2 e1)) (.next (.variant this.2)
      (.here (.variant this.1))))
  | iterable i =>
    obtain ⟨h', as, m, n, ha, hk⟩ := okIterable hE h
    obtain ⟨ls, h1, h2⟩ := h
    have c := closed_iterable i
    have l := last_iterable i
    have kn : Ko leaf G.constructorInterfaceMember s := first (k := .iterable) (k' := .constructor) ha hk (by decide)
    exact .next (.variant (kc c l h1 h2 e2)) (.next (.variant (ka c l h1 h2 e2)) (.next (.variant kn)
      (.next (.variant (ko kn c l h1 h2 e3)) (.here (.variant h')))))
  | asyncIterable i =>
    obtain ⟨h', as, m, n, n', q, ha, hk, hi, hq⟩ := okAsyncIterable hE h
    have kn : Ko leaf G.constructorInterfaceMember s := first (k := .async) (k' := .constructor) ha hk (by decide)
    have k : ∀ k : Kw, k ≠ .async → Ko leaf (G.kw k) m := fun k h => koKw' hE (k := .async) hk (Ne.symm h)
    exact .next (.variant (.right ha (.left (k _ (by decide))))) <|
      .next (.variant (.right ha (.right (.none (.altsCons (.kwAs (k _ (by decide))) <|
        .altsCons (.kwAs (k _ (by decide))) <| .altsCons (.kwAs (k _ (by decide))) .altsNil))
        (.right (.optKwF (k _ (by decide))) (.left (k _ (by decide))))))) <| .next (.variant kn) <|
      .next (.variant (.right ha (.right (.none (.altsCons (.kwAs (k _ (by decide))) <|
        .altsCons (.kwAs (k _ (by decide))) .altsNil)) (.right (.none (.altsCons (.kwAs (k _ (by decide))) <|
        .altsCons (.kwAs (k _ (by decide))) <| .altsCons (.kwAs (k _ (by decide))) <|
        .altsCons (.kwAs (k _ (by decide))) .altsNil))
        (.right (.next (.kwAs (k _ (by decide))) (.here (.variant (.typeWord (fun k' h => k k' (by
          rintro rfl; revert h; decide)) (okIdent hE (word_kw .async) hk) (.optPunctF
            (koPunct hE (solid_kw .iterable) hi (by decide)))))))
        (.right (.some (okIdent hE (word_kw .iterable) hi)) (.left (.left (koPunct hE
          (solid_punct (p := .lessThan) (by decide) (by decide)) hq (by decide)))))))))) <|
      .next (.variant (.altsCons (first (k := .async) ha hk (by decide)) <|
        .altsCons (first (k := .async) ha hk (by decide)) .altsNil)) (.here (.variant h'))
  | maplike i =>
    obtain ⟨h', as, m, k, n, ha, hk, hn⟩ := okMaplike hE h
    obtain ⟨ls, h1, h2⟩ := h
    have c := closed_maplike i
    have l := last_maplike i
    have ne : ∀ k', k' ≠ .readOnly → k' ≠ .maplike → k ≠ k' := by
      rintro k' h1 h2 rfl; rcases hk with rfl | rfl
      · exact h1 rfl
      · exact h2 rfl
    have kn : Ko leaf G.constructorInterfaceMember s := first (k' := .constructor) ha hn (ne _ (by decide) (by decide))
    exact .next (.variant (kc c l h1 h2 e2)) (.next (.variant (ka c l h1 h2 e2)) (.next (.variant kn)
      (.next (.variant (ko kn c l h1 h2 e3))
      (.next (.variant (.altsCons (first ha hn (ne _ (by decide) (by decide)))
        (.altsCons (first ha hn (ne _ (by decide) (by decide))) .altsNil)))
      (.next (.variant (.altsCons (first ha hn (ne _ (by decide) (by decide)))
        (.altsCons (first ha hn (ne _ (by decide) (by decide))) .altsNil)))
      (.here (.variant h')))))))
  | setlike i =>
    obtain ⟨h', hm, as, m, k, n, ha, hk, hn⟩ := okSetlike hE h
    obtain ⟨ls, h1, h2⟩ := h
    have c := closed_setlike i
    have l := last_setlike i
    have ne : ∀ k', k' ≠ .readOnly → k' ≠ .setlike → k ≠ k' := by
      rintro k' h1 h2 rfl; rcases hk with rfl | rfl
      · exact h1 rfl
      · exact h2 rfl
    have kn : Ko leaf G.constructorInterfaceMember s := first (k' := .constructor) ha hn (ne _ (by decide) (by decide))
    exact .next (.variant (kc c l h1 h2 e2)) (.next (.variant (ka c l h1 h2 e2)) (.next (.variant kn)
      (.next (.variant (ko kn c l h1 h2 e3))
      (.next (.variant (.altsCons (first ha hn (ne _ (by decide) (by decide)))
        (.altsCons (first ha hn (ne _ (by decide) (by decide))) .altsNil)))
      (.next (.variant (.altsCons (first ha hn (ne _ (by decide) (by decide)))
        (.altsCons (first ha hn (ne _ (by decide) (by decide))) .altsNil)))
      (.next (.variant hm) (.here (.variant h'))))))))
  | stringifier i =>
    obtain ⟨h', as, m, n, q, ha, hk, hq⟩ := okStringifierMember hE h
    have k : ∀ k : Kw, k ≠ .stringifier → Ko leaf (G.kw k) m :=
      fun k h => koKw' hE (k := .stringifier) hk (Ne.symm h)
    have d := dead_punct hE (p := .semiColon) hq
    have hs : Ok leaf (G.kwAs .stringifier StringifierOrStatic.stringifier) m n .stringifier :=
      okKwAs hE (k := .stringifier) hk
    have hs' : Ok leaf (G.kwAs .stringifier StringifierOrInheritOrStatic.stringifier) m n .stringifier :=
      okKwAs hE (k := .stringifier) hk
    exact .next (.variant (.right ha (.left (k _ (by decide))))) <|
      .next (.variant (.right ha (.right (.some (.here hs')) (.right (d.optKw _) (.left (d.kw _)))))) <|
      .next (.variant (.right ha (.left (k _ (by decide))))) <|
      .next (.variant (.right ha (.right (.some (.here hs)) (.right (.none (.altsCons (.kwAs (d.kw _)) <|
        .altsCons (.kwAs (d.kw _)) <| .altsCons (.kwAs (d.kw _)) <| .altsCons (.kwAs (d.kw _)) .altsNil))
        (.left d.returnType))))) <|
      .next (.variant (.altsCons (.right ha (.left (k _ (by decide))))
        (.altsCons (.right ha (.left (k _ (by decide)))) .altsNil))) <|
      .next (.variant (.altsCons (.right ha (.left (k _ (by decide))))
        (.altsCons (.right ha (.left (k _ (by decide)))) .altsNil))) <|
      .next (.variant (.right ha (.right (.optKwF (k _ (by decide))) (.left (k _ (by decide)))))) <|
      .next (.variant (.right ha (.right (.optKwF (k _ (by decide))) (.left (k _ (by decide)))))) <|
      .here (.variant h')

theorem ok_mixinMember (i : MixinMember) (h : RL Step (mixinMember i) s r) :
    Ok leaf G.mixinMember s r i := by
  have hS := hE.toStepping
  have hN := ntSound_exact hE
  have gc : Guarded true G.constMember true := inferInstance
  have go : Guarded true G.operationMixinMember true := inferInstance
  cases i with
  | const c => exact .here (.variant (okConst hE h))
  | operation o =>
    have h0 := h
    obtain ⟨ls, e1, e2⟩ := h0
    have kc := ko_ending hE gc (snd_constMember hS hN s) closed_constMember last_const
      (closed_operationMixinMember o) (last_operationMixin o) e1 e2 (by rintro w rfl h; exact h.1 rfl)
    obtain ⟨as, st, t, i, args⟩ := o
    obtain ⟨m1, ⟨la, h1, h1'⟩, h⟩ := rl_seq.1 h
    dsimp only at h1 h
    have hA : ∀ ls, (returnNamed t i ⨾ argumentList args ⨾ tok c!";") ls → Headed ls :=
      fun ls h => headed_operation h
    obtain ⟨m2, ha, ho, h3⟩ : ∃ m2, Ok leaf G.attrs s m1 as ∧ Ok leaf (G.optKw .stringifier) m1 m2 st ∧
        RL Step (returnNamed t i ⨾ argumentList args ⨾ tok c!";") m2 r := by
      cases st with
      | true =>
        obtain ⟨m2, h3, h4⟩ := rl_seq.1 h
        have h3 := rl_tok.1 h3
        exact ⟨m2, okAttrsKw hE (k := .stringifier) ⟨la, h1, h1'⟩ h3, .optKwT (okKw hE (k := .stringifier) h3), h4⟩
      | false =>
        obtain ⟨lb, ⟨h3, h4⟩, h5⟩ := h
        exact ⟨m1, ok_attributes hE as h1 h1' fun _ => (hA _ h3).notBracket hE h5,
          .optKwF (koKw_of hE (k := .stringifier) ((hA _ h3).avoid hE (solid_kw .stringifier) h5
            (h4 _ (by simp [Kw.text])))), lb, h3, h5⟩
    obtain ⟨m4, m5, m6, h8, h9, h10, h11⟩ := okOperationTail hE h3
    exact .next (.variant kc) (.here (.variant (.bind ha (.bind ho (.bind h8 (.bind h9 (.bind h10
      (.bind h11 .pure))))))))
  | «attribute» a =>
    have h0 := h
    obtain ⟨ls, e1, e2⟩ := h0
    have ko := ko_ending hE go (snd_operationMixinMember hS hN s) closed_operationMixinMember
      last_operationMixin (closed_attributeMixinMember a) (last_attributeMixin a) e1 e2
      (by rintro w h rfl; exact h.1 rfl)
    obtain ⟨as, st, ro, t, i⟩ := a
    obtain ⟨m1, h1, h⟩ := rl_seq.1 h
    obtain ⟨m2, h2, h⟩ := rl_seq.1 h
    dsimp only at h1 h2 h
    obtain ⟨⟨k, hk, n, hk'⟩, m3, m4, m5, m6, h3, h4, h5, h6, h7⟩ := okAttributeTail hE h
    obtain ⟨ho, k', n', hk2, hk2'⟩ : Ok leaf (G.optKw .stringifier) m1 m2 st ∧
        ∃ k n, k ∈ [Kw.readOnly, .attribute, .stringifier] ∧ Step m1 k.text n := by
      cases st with
      | true => 
        have h2 := rl_tok.1 h2
        exact ⟨.optKwT (okKw hE (k := .stringifier) h2), .stringifier, m2, by decide, h2⟩
      | false =>
        cases rl_eps.1 h2
        exact ⟨.optKwF (koKw' hE hk' (by rintro rfl; revert hk; decide)), k, n, by simp at hk ⊢; grind, hk'⟩
    have ha := okAttrsKw hE h1 hk2' (by rintro rfl; revert hk2; decide)
    exact .next (.variant (.right ha (.left (koKw' hE hk2' (by rintro rfl; revert hk2; decide))))) <|
      .next (.variant ko) (.here (.variant (.bind ha (.bind ho (.bind h3 (.bind h4 (.bind h5 (.bind h6
        (.bind h7 .pure)))))))))
  | stringifier i =>
    obtain ⟨h', as, m, n, q, ha, hk, hq⟩ := okStringifierMember hE h
    have d := dead_punct hE (p := .semiColon) hq
    have hs : Ok leaf (G.kw .stringifier) m n () := okKw hE (k := .stringifier) hk
    exact .next (.variant (.right ha (.left (koKw' hE (k := .stringifier) hk)))) <|
      .next (.variant (.right ha (.right (.optKwT hs) (.left d.returnType)))) <|
      .next (.variant (.right ha (.right (.optKwT hs) (.right (d.optKw _) (.left (d.kw _)))))) <|
      .here (.variant h')

theorem ok_namespaceMember (i : NamespaceMember) (h : RL Step (namespaceMember i) s r) :
    Ok leaf G.namespaceMember s r i := by
  have hS := hE.toStepping
  have hN := ntSound_exact hE
  have gc : Guarded true G.constMember true := inferInstance
  have go : Guarded true G.operationNamespaceMember true := inferInstance
  cases i with
  | const c => exact .here (.variant (okConst hE h))
  | operation o =>
    have h0 := h
    obtain ⟨ls, e1, e2⟩ := h0
    have kc := ko_ending hE gc (snd_constMember hS hN s) closed_constMember last_const
      (closed_operationNamespaceMember o) (last_operationNamespace o) e1 e2 (by rintro w rfl h; exact h.1 rfl)
    obtain ⟨as, t, i, args⟩ := o
    obtain ⟨m1, ⟨la, h1, h1'⟩, ⟨lb, h2, h2'⟩⟩ := rl_seq.1 h
    dsimp only at h1 h2
    have ha := ok_attributes hE as h1 h1' fun _ => (headed_operation h2).notBracket hE h2'
    obtain ⟨m4, m5, m6, h8, h9, h10, h11⟩ := okOperationTail hE ⟨lb, h2, h2'⟩
    exact .next (.variant kc) (.here (.variant (.bind ha (.bind h8 (.bind h9 (.bind h10
      (.bind h11 .pure)))))))
  | «attribute» a =>
    have h0 := h
    obtain ⟨ls, e1, e2⟩ := h0
    have ko := ko_ending hE go (snd_operationNamespaceMember hS hN s) closed_operationNamespaceMember
      last_operationNamespace (closed_attributeNamespaceMember a) (last_attributeNamespace a) e1 e2
      (by rintro w h rfl; exact h.1 rfl)
    obtain ⟨m1, h1, h⟩ := rl_seq.1 h
    obtain ⟨m2, h2, h⟩ := rl_seq.1 h
    obtain ⟨m3, h3, h⟩ := rl_seq.1 h
    obtain ⟨m4, h4, h5⟩ := rl_seq.1 h
    have h2 := rl_tok.1 h2
    have ha := okAttrsKw hE (k := .readOnly) h1 h2
    obtain ⟨m', h6, h7⟩ := okNamedAttributed hE h4
    exact .next (.variant (.right ha (.left (koKw' hE (k := .readOnly) h2)))) <|
      .next (.variant ko) (.here (.variant (.bind ha (.bind (okKw hE (k := .readOnly) h2)
        (.bind (okKw hE (k := .attribute) (rl_tok.1 h3)) (.bind h6 (.bind h7
        (.bind (okSemi hE (rl_tok.1 h5)) .pure))))))))

theorem ok_dictionaryMember (i : DictionaryMember) (h : RL Step (dictionaryMember i) s r) :
    Ok leaf G.dictionaryMember s r i := by
  obtain ⟨as, rq, t, i, d⟩ := i
  obtain ⟨m1, ⟨la, h1, h1'⟩, h⟩ := rl_seq.1 h
  dsimp only at h1 h
  obtain ⟨m2, ha, ho, h3⟩ : ∃ m2, Ok leaf G.attrs s m1 as ∧ Ok leaf (G.optKw .required) m1 m2 rq ∧
      RL Step (named (type t) i ⨾ Spec.default d ⨾ tok c!";") m2 r := by
    cases rq with
    | true =>
      obtain ⟨m2, h3, h4⟩ := rl_seq.1 h
      have h3 := rl_tok.1 h3
      exact ⟨m2, okAttrsKw hE (k := .required) ⟨la, h1, h1'⟩ h3, .optKwT (okKw hE (k := .required) h3), h4⟩
    | false =>
      obtain ⟨lb, ⟨h3, h4⟩, h5⟩ := h
      have hh : Headed lb := by
        obtain ⟨_, _, rfl, ⟨_, _, rfl, h6, -⟩, -⟩ := h3
        exact ((show Headed _ from type_head h6).append _).append _
      exact ⟨m1, ok_attributes hE as h1 h1' fun _ => hh.notBracket hE h5,
        .optKwF (koKw_of hE (k := .required) (hh.avoid hE (solid_kw .required) h5
          (h4 _ (by simp [Kw.text])))), lb, h3, h5⟩
  obtain ⟨m3, ⟨l, h3, h3'⟩, h⟩ := rl_seq.1 h3
  obtain ⟨m4, h4, h5⟩ := rl_seq.1 h
  have h5 := rl_tok.1 h5
  obtain ⟨a, w, m, h7, h8, h9, h10, h11⟩ := named_split hE h3 h3'
  exact .bind ha (.bind ho (.bind (ok_type hE t h7 h8 h9) (.bind (okIdent hE h10 h11)
    (.bind (okDefault hE h4 (semi_stop hE h5)) (.bind (okSemi hE h5) .pure)))))

end

end Verif
