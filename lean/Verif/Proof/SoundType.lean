import Verif.Proof.Sound

/-!
# Soundness: literals, types, attributes, arguments
-/

set_option linter.unusedSectionVars false

namespace Verif
open Nom Spec

variable {σ : Type} [DecidableEq σ] {leaf : ∀ α, Leaf α → P σ α}
  {Step : List σ → Str → List σ → Prop} {nt : ∀ α, NT α → P σ α}

variable (Step) in
/-- The next lexeme does not complete a longer type. -/
def NoJoin (ls : List Str) (r : List σ) : Prop := ∀ w r', Step r w r' → ls ++ [w] ∉ twoWordTypes

variable (Step) in
/-- A type has been read. -/
def TypeAt {α : Type} (L : α → Lang) (a : α) (ls : List Str) (r : List σ) : Prop :=
  L a ls ∧ NoJoin Step ls r

variable (leaf Step nt) in
/-- The recursive calls are sound. -/
structure NtSound : Prop where
  type : ∀ s, SndAt leaf Step nt (.call .type) s (TypeAt Step type)
  nonAny : ∀ s, SndAt leaf Step nt (.call .nonAny) s (TypeAt Step nonAnyType)
  unionMember : Snd leaf Step nt (.call .unionMember) unionMember
  argument : Snd leaf Step nt (.call .argument) argument

omit [DecidableEq σ] in
theorem noJoin_head {w : Str} {ls : List Str} {r : List σ}
    (h : w ∉ [c!"long", c!"unsigned", c!"unrestricted"]) : NoJoin Step (w :: ls) r := by
  intro w' r' _ h'
  simp [twoWordTypes] at h' h
  grind

omit [DecidableEq σ] in
theorem noJoin_qmark {ls : List Str} {r : List σ} : NoJoin Step (ls ++ [c!"?"]) r := by
  intro w r' _ h'
  rcases ls with _ | ⟨a, _ | ⟨b, _ | ⟨c, ls⟩⟩⟩ <;> simp [twoWordTypes] at h'

theorem extAttrs_eq (as : List ExtAttr) : extAttrs as = as.map extAttr := by
  induction as with
  | nil => rfl
  | cons a as ih => simp [extAttrs, ih]

theorem arguments_eq (as : List Argument) : arguments as = as.map argument := by
  induction as with
  | nil => rfl
  | cons a as ih => simp [arguments, ih]

theorem unionMembers_eq (as : List UnionMember) : unionMembers as = as.map unionMember := by
  induction as with
  | nil => rfl
  | cons a as ih => simp [unionMembers, ih]

theorem seq_intro {A B : Lang} {a b : List Str} (ha : A a) (hb : B b) : (A ⨾ B) (a ++ b) :=
  ⟨a, b, rfl, ha, hb⟩

theorem seq_tok {w : Str} {B : Lang} {b : List Str} (hb : B b) : (tok w ⨾ B) ([w] ++ b) :=
  ⟨[w], b, rfl, rfl, hb⟩

section
variable (hS : Stepping leaf Step)
include hS

/-! ## Literals -/

theorem snd_integerLit : Snd leaf Step nt G.integerLit integerLit := fun _ =>
  .altsCons (.variant (.ofLeaf hS fun w m v _ h => by cases h.1; exact ⟨h.2, rfl⟩)) fun _ =>
  .altsCons (.variant (.ofLeaf hS fun w m v _ h => by cases h.1; exact ⟨h.2, rfl⟩)) fun _ =>
  .altsCons (.variant (.ofLeaf hS fun w m v _ h => by cases h.1; exact ⟨h.2, rfl⟩)) fun _ =>
  .altsNil

theorem snd_floatLit : Snd leaf Step nt G.floatLit floatLit := fun _ =>
  .altsCons (.variant (.ofLeaf hS fun w m v _ h => by cases h.1; exact ⟨h.2, rfl⟩)) fun _ =>
  .altsCons (.kwAs hS fun _ _ => rfl) fun _ =>
  .altsCons (.kwAs hS fun _ _ => rfl) fun _ =>
  .altsCons (.kwAs hS fun _ _ => rfl) fun _ =>
  .altsNil

theorem snd_booleanLit : Snd leaf Step nt G.booleanLit booleanLit := fun _ =>
  .altsCons (.kwAs hS fun _ _ => rfl) fun _ =>
  .altsCons (.kwAs hS fun _ _ => rfl) fun _ =>
  .altsNil

theorem snd_stringLit : Snd leaf Step nt G.stringLit string := fun _ =>
  .ofLeaf hS fun _ _ _ _ h => by rw [h.1]; exact ⟨h.2, rfl⟩

theorem snd_defaultValue : Snd leaf Step nt G.defaultValue defaultValue := fun _ =>
  .altsCons (.variant (snd_booleanLit hS _)) fun _ =>
  .altsCons (.variant (.punctThen hS fun _ _ => .punctEnd hS fun _ _ =>
    ⟨_, _, rfl, rfl, rfl⟩)) fun _ =>
  .altsCons (.variant (.punctThen hS fun _ _ => .punctEnd hS fun _ _ =>
    ⟨_, _, rfl, rfl, rfl⟩)) fun _ =>
  .altsCons (.variant (snd_floatLit hS _)) fun _ =>
  .altsCons (.variant (snd_integerLit hS _)) fun _ =>
  .altsCons (.kwAs hS fun _ _ => rfl) fun _ =>
  .altsCons (.variant (snd_stringLit hS _)) fun _ =>
  .altsNil

theorem snd_constValue : Snd leaf Step nt G.constValue constValue := fun _ =>
  .altsCons (.variant (snd_booleanLit hS _)) fun _ =>
  .altsCons (.variant (snd_floatLit hS _)) fun _ =>
  .altsCons (.variant (snd_integerLit hS _)) fun _ =>
  .altsCons (.kwAs hS fun _ _ => rfl) fun _ =>
  .altsNil

theorem snd_default : Snd leaf Step nt (.opt G.default) Spec.default := fun _ =>
  .opt (.punctThen hS fun _ _ => .mono (snd_defaultValue hS _) fun _ _ _ h =>
    ⟨_, _, rfl, rfl, h⟩) fun _ => rfl

/-! ## Integer and floating point types -/

omit hS in
theorem run_optKw_ok {k : Kw} {s r : List σ} {b : Bool}
    (h : (G.optKw k).run leaf nt s = .ok r b) :
    (b = true ∧ (G.kw k).run leaf nt s = .ok r ()) ∨
    (b = false ∧ r = s ∧ FailsAt leaf nt (G.kw k) s) := by
  obtain ⟨m, o, h1, h2⟩ := run_bind_ok.1 h
  rw [run_pure] at h2
  simp at h2
  obtain ⟨rfl, rfl⟩ := h2
  simp only [G.run, Nom.opt] at h1
  split at h1 <;> simp at h1
  · next e => obtain ⟨rfl, rfl⟩ := h1; exact .inl ⟨rfl, e⟩
  · next p k e => obtain ⟨rfl, rfl⟩ := h1; exact .inr ⟨rfl, rfl, p, k, e⟩

/-- Either the keyword is there or it is not. -/
theorem kw_total (k : Kw) (s : List σ) :
    (∃ r, (G.kw k).run leaf nt s = .ok r () ∧ Step s k.text r) ∨
      FailsAt leaf nt (G.kw k) s ∧ NotNext Step s k.text := by
  rcases hS.total _ (.kw k) s with ⟨r, ⟨⟩, h⟩ | h
  · obtain ⟨w, h1, rfl⟩ := hS.ok h
    exact .inl ⟨r, h, h1⟩
  · exact .inr ⟨h, hS.kwNo h⟩

theorem kw_of_step {k : Kw} {s r : List σ} (h : Step s k.text r) :
    (G.kw k).run leaf nt s = .ok r () := by
  rcases kw_total (nt := nt) hS k s with ⟨r', h1, h2⟩ | ⟨-, h2⟩
  · rw [hS.det h h2]; exact h1
  · exact absurd h (h2 r)

theorem punct_of_step {p : Punct} {s r : List σ} (h : Step s p.text r) :
    (G.punct p).run leaf nt s = .ok r () := by
  rcases hS.total _ (.punct p) s with ⟨r', ⟨⟩, h1⟩ | h1
  · obtain ⟨w, h2, rfl⟩ := hS.ok h1
    rw [hS.det h h2]; exact h1
  · exact absurd h (hS.punctNo h1 r)

theorem optKw_of_step {k : Kw} {s r : List σ} (h : Step s k.text r) :
    (G.optKw k).run leaf nt s = .ok r true := by
  have h1 := kw_of_step (nt := nt) hS h
  refine run_bind_ok.2 ⟨r, some (), ?_, rfl⟩
  simp only [G.run, Nom.opt]
  rw [h1]

omit hS in
theorem optKw_of_fails {k : Kw} {s : List σ} (h : FailsAt leaf nt (G.kw k) s) :
    (G.optKw k).run leaf nt s = .ok s false := by
  obtain ⟨p, q, h⟩ := h
  refine run_bind_ok.2 ⟨s, none, ?_, rfl⟩
  simp only [G.run, Nom.opt]
  rw [h]

theorem sndAt_integerType (s : List σ) :
    SndAt leaf Step nt G.integerType s (TypeAt Step integerType) := by
  refine .altsCons (g := G.longLongType) ?_ fun h1 =>
    .altsCons (g := G.longType) ?_ fun _ => .altsCons (g := G.shortType) ?_ fun _ => .altsNil
  · exact .bind (Snd.optKw hS _ _) fun u ls m _ h => .kwThen hS fun _ _ =>
      .bindPure (f := fun _ => IntegerType.longLong u) (.kw hS fun _ _ =>
      ⟨seq_intro h (seq_tok rfl), by
        intro w r' _ hw
        cases u <;> cases h <;> simp [twoWordTypes, Kw.text] at hw⟩)
  · intro r t e
    obtain ⟨m, u, e1, e2⟩ := run_bind_ok.1 e
    obtain ⟨r', ⟨⟩, e3, e4⟩ := run_bind_ok.1 e2
    rw [run_pure] at e4
    simp only [Res.ok.injEq] at e4
    obtain ⟨rfl, rfl⟩ := e4
    replace e2 := e3
    obtain ⟨ls, h2, h3⟩ := Snd.optKw hS _ _ _ _ e1
    obtain ⟨_, h4, rfl⟩ := Snd.kw hS _ _ _ _ e2
    refine ⟨ls ++ [_], h2.append h4, seq_intro h3 rfl, ?_⟩
    intro w r'' hw hj
    have hno : NotNext Step r' c!"long" := by
      rcases run_bind_fails.1 h1 with h5 | ⟨m', u', h5, h6⟩
      · obtain ⟨p, k, h5⟩ := h5
        rw [h5] at e1; cases e1
      · rw [e1] at h5
        simp at h5
        obtain ⟨rfl, rfl⟩ := h5
        rcases run_bind_fails.1 h6 with ⟨p, k, h7⟩ | ⟨m', ⟨⟩, h7, h8⟩
        · rw [h7] at e2; cases e2
        · rw [e2] at h7
          simp at h7
          subst h7
          rcases run_bind_fails.1 h8 with h9 | ⟨_, _, _, h9⟩
          · exact fails_kw hS h9
          · exact absurd h9 not_fails_pure
    have : w = c!"long" := by
      cases u <;> cases h3 <;> simp [twoWordTypes, Kw.text] at hj <;> exact hj
    subst this
    exact hno _ hw
  · exact .bind (Snd.optKw hS _ _) fun u ls m _ h =>
      .bindPure (f := fun _ => IntegerType.short u) (.kw hS fun _ _ =>
      ⟨seq_intro h rfl, by
        intro w r' _ hw
        cases u <;> cases h <;> simp [twoWordTypes, Kw.text] at hw⟩)

theorem sndAt_floatingPointType (s : List σ) :
    SndAt leaf Step nt G.floatingPointType s (TypeAt Step floatingPointType) := by
  refine .altsCons (g := G.floatType) ?_ fun _ => .altsCons (g := G.doubleType) ?_ fun _ => .altsNil
  · exact .bind (Snd.optKw hS _ _) fun u ls m _ h =>
      .bindPure (f := fun _ => FloatingPointType.float u) (.kw hS fun _ _ =>
      ⟨seq_intro h rfl, by
        intro w r' _ hw
        cases u <;> cases h <;> simp [twoWordTypes, Kw.text] at hw⟩)
  · exact .bind (Snd.optKw hS _ _) fun u ls m _ h =>
      .bindPure (f := fun _ => FloatingPointType.double u) (.kw hS fun _ _ =>
      ⟨seq_intro h rfl, by
        intro w r' _ hw
        cases u <;> cases h <;> simp [twoWordTypes, Kw.text] at hw⟩)

/-- After `unsigned`, no `long` and no `short`. -/
theorem fails_integerType {s r : List σ} (h : FailsAt leaf nt G.integerType s)
    (hw : Step s c!"unsigned" r) : NotNext Step r c!"long" ∧ NotNext Step r c!"short" := by
  have e1 : (G.optKw .unsigned).run leaf nt s = .ok r true := optKw_of_step hS hw
  constructor
  · intro r' hl
    have e2 := kw_of_step (nt := nt) hS (k := .long) hl
    have e3 : G.longType.run leaf nt s = .ok r' (.long true) :=
      run_bind_ok.2 ⟨_, _, e1, run_bind_ok.2 ⟨_, _, e2, rfl⟩⟩
    obtain ⟨p, k, h⟩ := h
    simp only [G.integerType, G.alts, G.run, Nom.orElse, e3] at h
    grind
  · intro r' hl
    have e2 := kw_of_step (nt := nt) hS (k := .short) hl
    have e3 : G.shortType.run leaf nt s = .ok r' (.short true) :=
      run_bind_ok.2 ⟨_, _, e1, run_bind_ok.2 ⟨_, _, e2, rfl⟩⟩
    obtain ⟨p, k, h⟩ := h
    simp only [G.integerType, G.alts, G.run, Nom.orElse, e3] at h
    grind

theorem fails_floatingPointType {s r : List σ} (h : FailsAt leaf nt G.floatingPointType s)
    (hw : Step s c!"unrestricted" r) : NotNext Step r c!"float" ∧ NotNext Step r c!"double" := by
  have e1 : (G.optKw .unrestricted).run leaf nt s = .ok r true := optKw_of_step hS hw
  constructor
  · intro r' hl
    have e2 := kw_of_step (nt := nt) hS (k := .float) hl
    have e3 : G.floatType.run leaf nt s = .ok r' (.float true) :=
      run_bind_ok.2 ⟨_, _, e1, run_bind_ok.2 ⟨_, _, e2, rfl⟩⟩
    obtain ⟨p, k, h⟩ := h
    simp only [G.floatingPointType, G.alts, G.run, Nom.orElse, e3] at h
    grind
  · intro r' hl
    have e2 := kw_of_step (nt := nt) hS (k := .double) hl
    have e3 : G.doubleType.run leaf nt s = .ok r' (.double true) :=
      run_bind_ok.2 ⟨_, _, e1, run_bind_ok.2 ⟨_, _, e2, rfl⟩⟩
    obtain ⟨p, k, h⟩ := h
    simp only [G.floatingPointType, G.alts, G.run, Nom.orElse, e3] at h
    grind


/-! ## Types -/

theorem name_word {i w : Str} (h : name i [w]) : w ≠ [] ∧ w.head? ≠ some '?' := by
  obtain ⟨h1, h2⟩ := h
  obtain ⟨c, v, rfl, hc, -⟩ := word_iff.1 h1
  simp at h2
  rcases h2 with rfl | rfl
  · simp
    rintro rfl
    revert hc
    decide
  · simp

omit hS in
theorem name_self {w : Str} (h : Regex.word.Matches w) : name w [w] := ⟨h, .inl rfl⟩

/-- A word is not another keyword. -/
theorem kw_other {k : Kw} {i w : Str} {s r : List σ} (hw : name i [w]) (h : Step s w r)
    (hne : w ≠ k.text) : FailsAt leaf nt (G.kw k) s := by
  rcases hS.exact hw h (.kw k) with ⟨v, h1, -⟩ | ⟨-, h1⟩
  · exact absurd h1 hne
  · exact h1

omit hS in
theorem not_fails_optPunct {p : Punct} {s : List σ} : ¬ FailsAt leaf nt (G.optPunct p) s := by
  intro h
  rcases run_bind_fails.1 h with ⟨q, k, h⟩ | ⟨m, _, _, h⟩
  · simp only [G.run, Nom.opt] at h
    split at h <;> simp at h
    next h1 h2 => subst h; exact h1 _ _ rfl
  · exact not_fails_pure h

omit hS in
theorem fails_mayBeNull {α β : Type} {f : α → Bool → β} {g : G α} {s : List σ}
    (h : FailsAt leaf nt (G.mayBeNull f g) s) : FailsAt leaf nt g s := by
  rcases run_bind_fails.1 h with h | ⟨m, _, _, h⟩
  · exact h
  · rcases run_bind_fails.1 h with h | ⟨m, _, _, h⟩
    · exact absurd h not_fails_optPunct
    · exact absurd h not_fails_pure

theorem sndAt_mayBeNull {α β : Type} {f : α → Bool → β} {g : G α} {s : List σ}
    {L : α → Lang} {L' : β → Lang} (hg : SndAt leaf Step nt g s (TypeAt Step L))
    (hL : ∀ a q ls, (L a ⨾ optTok q c!"?") ls → L' (f a q) ls) :
    SndAt leaf Step nt (G.mayBeNull f g) s (TypeAt Step L') :=
  .bind hg fun _ ls _ _ h => .bindPure (.optPunct hS
    (fun _ _ => ⟨hL _ _ _ (seq_intro h.1 rfl), noJoin_qmark⟩)
    (fun _ => ⟨hL _ _ _ (seq_intro h.1 rfl), by simpa using h.2⟩))

theorem sndAt_builtin (b : Builtin) (s : List σ) :
    SndAt leaf Step nt (G.builtin b) s (TypeAt Step nonAnyType) :=
  sndAt_mayBeNull (L := fun b => tok (builtinWord b)) hS
    (.kwAs hS fun _ _ => by cases b <;> exact ⟨rfl, noJoin_head (by decide)⟩)
    (fun _ _ _ h => h)

theorem fails_builtin {b : Builtin} {s : List σ} (h : FailsAt leaf nt (G.builtin b) s) :
    NotNext Step s (builtinWord b) := by
  have := fails_kwAs hS (fails_mayBeNull h)
  cases b <;> exact this

theorem fails_integerType_one {s : List σ} (h : FailsAt leaf nt G.integerType s) :
    NotNext Step s c!"long" ∧ NotNext Step s c!"short" := by
  have hw : Regex.word.Matches c!"long" := word_iff.2 ⟨_, _, rfl, by decide, by decide⟩
  have hw' : Regex.word.Matches c!"short" := word_iff.2 ⟨_, _, rfl, by decide, by decide⟩
  constructor <;> intro r hl
  · have e1 := optKw_of_fails (kw_other (nt := nt) hS (k := .unsigned) (name_self hw) hl (by decide))
    have e2 := kw_of_step (nt := nt) hS (k := .long) hl
    have e3 : G.longType.run leaf nt s = .ok r (.long false) :=
      run_bind_ok.2 ⟨_, _, e1, run_bind_ok.2 ⟨_, _, e2, rfl⟩⟩
    obtain ⟨p, k, h⟩ := h
    simp only [G.integerType, G.alts, G.run, Nom.orElse, e3] at h
    grind
  · have e1 := optKw_of_fails (kw_other (nt := nt) hS (k := .unsigned) (name_self hw') hl (by decide))
    have e2 := kw_of_step (nt := nt) hS (k := .short) hl
    have e3 : G.shortType.run leaf nt s = .ok r (.short false) :=
      run_bind_ok.2 ⟨_, _, e1, run_bind_ok.2 ⟨_, _, e2, rfl⟩⟩
    obtain ⟨p, k, h⟩ := h
    simp only [G.integerType, G.alts, G.run, Nom.orElse, e3] at h
    grind

theorem fails_floatingPointType_one {s : List σ} (h : FailsAt leaf nt G.floatingPointType s) :
    NotNext Step s c!"float" ∧ NotNext Step s c!"double" := by
  have hw : Regex.word.Matches c!"float" := word_iff.2 ⟨_, _, rfl, by decide, by decide⟩
  have hw' : Regex.word.Matches c!"double" := word_iff.2 ⟨_, _, rfl, by decide, by decide⟩
  constructor <;> intro r hl
  · have e1 := optKw_of_fails
      (kw_other (nt := nt) hS (k := .unrestricted) (name_self hw) hl (by decide))
    have e2 := kw_of_step (nt := nt) hS (k := .float) hl
    have e3 : G.floatType.run leaf nt s = .ok r (.float false) :=
      run_bind_ok.2 ⟨_, _, e1, run_bind_ok.2 ⟨_, _, e2, rfl⟩⟩
    obtain ⟨p, k, h⟩ := h
    simp only [G.floatingPointType, G.alts, G.run, Nom.orElse, e3] at h
    grind
  · have e1 := optKw_of_fails
      (kw_other (nt := nt) hS (k := .unrestricted) (name_self hw') hl (by decide))
    have e2 := kw_of_step (nt := nt) hS (k := .double) hl
    have e3 : G.doubleType.run leaf nt s = .ok r (.double false) :=
      run_bind_ok.2 ⟨_, _, e1, run_bind_ok.2 ⟨_, _, e2, rfl⟩⟩
    obtain ⟨p, k, h⟩ := h
    simp only [G.floatingPointType, G.alts, G.run, Nom.orElse, e3] at h
    grind

/-- An identifier where no keyword type could be read. -/
theorem sndAt_typeName {s : List σ} {words : List Str} (hw : ∀ w ∈ words, NotNext Step s w)
    (hl : c!"long" ∈ words)
    (hi : FailsAt leaf nt G.integerType s) (hf : FailsAt leaf nt G.floatingPointType s) :
    SndAt leaf Step nt G.ident s (TypeAt Step (typeName words)) := by
  refine .ident hS fun w m i h hn => ?_
  obtain ⟨hm, h2⟩ := hn
  simp only [List.cons.injEq, and_true] at h2
  refine ⟨⟨hm, ?_⟩, ?_⟩
  · rcases h2 with rfl | rfl
    · exact .inl ⟨rfl, fun h3 => hw _ h3 _ h⟩
    · exact .inr rfl
  · rcases h2 with rfl | rfl
    · intro w' r' h3 h4
      have h5 : (w = c!"long" ∧ w' = c!"long") ∨ (w = c!"unsigned" ∧ w' = c!"long") ∨
          (w = c!"unsigned" ∧ w' = c!"short") ∨ (w = c!"unrestricted" ∧ w' = c!"float") ∨
          (w = c!"unrestricted" ∧ w' = c!"double") := by
        simpa [twoWordTypes] using h4
      rcases h5 with ⟨rfl, rfl⟩ | ⟨rfl, rfl⟩ | ⟨rfl, rfl⟩ | ⟨rfl, rfl⟩ | ⟨rfl, rfl⟩
      · exact hw _ hl _ h
      · exact (fails_integerType hS hi h).1 _ h3
      · exact (fails_integerType hS hi h).2 _ h3
      · exact (fails_floatingPointType hS hf h).1 _ h3
      · exact (fails_floatingPointType hS hf h).2 _ h3
    · exact noJoin_head (by simp)

section
variable (hN : NtSound leaf Step nt)
include hN

theorem snd_ntType : Snd leaf Step nt (.call .type) type := fun s =>
  .mono (hN.type s) fun _ _ _ h => h.1

theorem snd_argumentList : Snd leaf Step nt G.argumentList (fun as => sepBy comma (arguments as)) := by
  have := Snd.commaList hS hN.argument
  intro s
  exact .mono (this s) fun as ls _ h => by simp only [arguments_eq]; exact h

theorem snd_parenArgs : Snd leaf Step nt (G.parenthesized G.argumentList) argumentList :=
  Snd.parenthesized hS (snd_argumentList hS hN)

omit hN in
theorem snd_identifierOrString : Snd leaf Step nt G.identifierOrString identifierOrString := fun _ =>
  .altsCons (.variant (Snd.ident hS _)) fun _ =>
  .altsCons (.variant (snd_stringLit hS _)) fun _ =>
  .altsNil

theorem snd_extAttrArgList : Snd leaf Step nt G.extAttrArgList extAttr := fun _ =>
  .bind (Snd.ident hS _) fun i _ _ _ h1 =>
    .bindPure (f := fun a => ExtAttr.argList i a) (.mono (snd_parenArgs hS hN _) fun _ _ _ h2 =>
      seq_intro h1 h2)

theorem snd_extAttrNamedArgList : Snd leaf Step nt G.extAttrNamedArgList extAttr := fun _ =>
  .bind (Snd.ident hS _) fun i _ _ _ h1 => .punctThen hS fun _ _ =>
    .bind (Snd.ident hS _) fun j _ _ _ h2 =>
    .bindPure (f := fun a => ExtAttr.namedArgList i j a) (.mono (snd_parenArgs hS hN _)
      fun _ _ _ h3 => seq_intro h1 (seq_tok (seq_intro h2 h3)))

theorem snd_extAttrIdentList : Snd leaf Step nt G.extAttrIdentList extAttr := fun _ =>
  .bind (Snd.ident hS _) fun i _ _ _ h1 => .punctThen hS fun _ _ =>
    .bindPure (f := fun a => ExtAttr.identList i a)
      (.mono (Snd.parenthesized hS (Snd.commaList hS (Snd.ident hS)) _)
      fun _ _ _ h3 => seq_intro h1 (seq_tok h3))

theorem snd_extAttrIdent : Snd leaf Step nt G.extAttrIdent extAttr := fun _ =>
  .bind (Snd.ident hS _) fun i _ _ _ h1 => .punctThen hS fun _ _ =>
    .bindPure (f := fun a => ExtAttr.ident i a) (.mono (snd_identifierOrString hS _)
      fun _ _ _ h3 => seq_intro h1 (seq_tok h3))

theorem snd_extAttrWildcard : Snd leaf Step nt G.extAttrWildcard extAttr := fun _ =>
  .bind (Snd.ident hS _) fun _ _ _ _ h1 => .punctThen hS fun _ _ =>
    .punctEnd hS fun _ _ => seq_intro h1 (seq_tok rfl)

theorem snd_extAttrNoArgs : Snd leaf Step nt G.extAttrNoArgs extAttr := fun _ =>
  .bindPure (f := ExtAttr.noArgs) (Snd.ident hS _)

theorem snd_extAttr : Snd leaf Step nt G.extAttr extAttr := fun _ =>
  .altsCons (snd_extAttrArgList hS hN _) fun _ =>
  .altsCons (snd_extAttrNamedArgList hS hN _) fun _ =>
  .altsCons (snd_extAttrIdentList hS hN _) fun _ =>
  .altsCons (snd_extAttrIdent hS hN _) fun _ =>
  .altsCons (snd_extAttrWildcard hS hN _) fun _ =>
  .altsCons (snd_extAttrNoArgs hS hN _) fun _ =>
  .altsNil

theorem snd_extAttrList : Snd leaf Step nt G.extAttrList (fun as => attributes (some as)) := by
  have := Snd.bracketed hS (Snd.commaList hS (snd_extAttr hS hN))
  intro s
  exact .mono (this s) fun as ls _ h => by simp only [attributes, extAttrs_eq]; exact h

theorem snd_attrs : Snd leaf Step nt G.attrs attributes := fun s =>
  .opt (snd_extAttrList hS hN s) fun _ => by simp only [attributes]; rfl

theorem snd_unionType :
    Snd leaf Step nt G.unionType (fun ms => parens (sepBy (tok c!"or") (unionMembers ms))) := by
  have := Snd.parenthesized hS (Snd.separatedList hN.unionMember (Snd.kw hS .or))
  intro s
  exact .mono (this s) fun as ls _ h => by simp only [unionMembers_eq]; exact h

theorem snd_returnTypeOf {g : G Ty} (hg : Snd leaf Step nt g type) :
    Snd leaf Step nt (G.returnTypeOf g) returnType := fun s =>
  .altsCons (.kwAs hS fun _ _ => by simp only [returnType]; rfl) fun h =>
  .altsCons (.variant (.withReads (.mono (hg s) fun _ _ _ h1 hr => by
    simp only [returnType]
    refine ⟨h1, ?_⟩
    simp
    exact hr.not_prefix (fails_kwAs hS h)))) fun _ =>
  .altsNil

theorem sndAt_recordKeyType (s : List σ) :
    SndAt leaf Step nt G.recordKeyType s (fun a ls _ => recordKeyType a ls) :=
  .altsCons (.kwAs hS fun _ _ => by simp only [recordKeyType]; rfl) fun h1 =>
  .altsCons (.kwAs hS fun _ _ => by simp only [recordKeyType]; rfl) fun h2 =>
  .altsCons (.kwAs hS fun _ _ => by simp only [recordKeyType]; rfl) fun h3 =>
  .altsCons (.variant (.withReads (.mono (hN.nonAny s) fun _ _ _ h hr => by
    simp only [recordKeyType]
    refine ⟨h.1, ?_⟩
    simp
    exact ⟨hr.not_prefix (fails_kwAs hS h1), hr.not_prefix (fails_kwAs hS h2),
      hr.not_prefix (fails_kwAs hS h3)⟩))) fun _ =>
  .altsNil

theorem sndAt_nonAnyType (s : List σ) :
    SndAt leaf Step nt G.nonAnyType s (TypeAt Step nonAnyType) := by
  refine .altsCons ?_ fun _ => .altsCons ?_ fun h1 => .altsCons ?_ fun h2 =>
    .altsCons (sndAt_builtin hS _ _) fun b1 => .altsCons (sndAt_builtin hS _ _) fun b2 =>
    .altsCons (sndAt_builtin hS _ _) fun b3 => .altsCons (sndAt_builtin hS _ _) fun b4 =>
    .altsCons (sndAt_builtin hS _ _) fun b5 => .altsCons (sndAt_builtin hS _ _) fun b6 =>
    .altsCons ?_ fun _ =>
    .altsCons (sndAt_builtin hS _ _) fun b7 => .altsCons (sndAt_builtin hS _ _) fun b8 =>
    .altsCons (sndAt_builtin hS _ _) fun b9 => .altsCons (sndAt_builtin hS _ _) fun b10 =>
    .altsCons (sndAt_builtin hS _ _) fun b11 => .altsCons (sndAt_builtin hS _ _) fun b12 =>
    .altsCons (sndAt_builtin hS _ _) fun b13 => .altsCons (sndAt_builtin hS _ _) fun b14 =>
    .altsCons (sndAt_builtin hS _ _) fun b15 => .altsCons (sndAt_builtin hS _ _) fun b16 =>
    .altsCons (sndAt_builtin hS _ _) fun b17 => .altsCons (sndAt_builtin hS _ _) fun b18 =>
    .altsCons (sndAt_builtin hS _ _) fun b19 => .altsCons (sndAt_builtin hS _ _) fun b20 =>
    .altsCons (sndAt_builtin hS _ _) fun b21 => .altsCons (sndAt_builtin hS _ _) fun b22 =>
    .altsCons ?_ fun _ => .altsCons ?_ fun _ => .altsCons ?_ fun _ => .altsNil
  · exact .kwThen hS fun _ _ => .bindPure (f := NonAnyType.promise)
      (.mono (Snd.generics hS (snd_returnTypeOf hS hN (snd_ntType hS hN)) _) fun _ _ _ h =>
        ⟨by simp only [nonAnyType]; exact seq_tok h, noJoin_head (by decide)⟩)
  · exact sndAt_mayBeNull hS (sndAt_integerType hS _) fun _ _ _ h => by simp only [nonAnyType]; exact h
  · exact sndAt_mayBeNull hS (sndAt_floatingPointType hS _) fun _ _ _ h => by
      simp only [nonAnyType]; exact h
  · refine sndAt_mayBeNull (L := fun t => tok c!"sequence" ⨾ angles (type t)) hS ?_
      fun _ _ _ h => by simp only [nonAnyType]; exact h
    exact .kwThen hS fun _ _ => (.mono (Snd.generics hS (snd_ntType hS hN) _) fun _ _ _ h =>
        ⟨seq_tok h, noJoin_head (by decide)⟩)
  · refine sndAt_mayBeNull (L := fun t => tok c!"FrozenArray" ⨾ angles (type t)) hS ?_
      fun _ _ _ h => by simp only [nonAnyType]; exact h
    exact .kwThen hS fun _ _ => (.mono (Snd.generics hS (snd_ntType hS hN) _) fun _ _ _ h =>
        ⟨seq_tok h, noJoin_head (by decide)⟩)
  · refine sndAt_mayBeNull (L := fun kv => tok c!"record" ⨾
      angles (recordKeyType kv.1 ⨾ comma ⨾ type kv.2)) hS ?_
      fun _ _ _ h => by simp only [nonAnyType]; exact h
    refine .kwThen hS fun _ _ => (.mono (Snd.generics hS
      (L := fun kv => recordKeyType kv.1 ⨾ comma ⨾ type kv.2) ?_ _) fun _ _ _ h =>
        ⟨seq_tok h, noJoin_head (by decide)⟩)
    exact fun _ => .bind (sndAt_recordKeyType hS hN _) fun k _ _ _ h1 => .punctThen hS fun _ _ =>
      .bindPure (f := fun v => (k, v)) (.mono (snd_ntType hS hN _) fun _ _ _ h2 =>
        seq_intro h1 (seq_tok h2))
  · refine sndAt_mayBeNull (L := typeName typeWords) hS ?_
      fun _ _ _ h => by simp only [nonAnyType]; exact h
    replace h1 := fails_mayBeNull h1
    replace h2 := fails_mayBeNull h2
    refine sndAt_typeName hS ?_ (by decide) h1 h2
    have g1 := fails_integerType_one hS h1
    have g2 := fails_floatingPointType_one hS h2
    simp only [typeWords, List.forall_mem_cons]
    exact ⟨g1.1, g1.2, g2.1, g2.2, fails_builtin hS b1, fails_builtin hS b2, fails_builtin hS b3,
      fails_builtin hS b4, fails_builtin hS b5, fails_builtin hS b6, fails_builtin hS b7,
      fails_builtin hS b8, fails_builtin hS b9, fails_builtin hS b10, fails_builtin hS b11,
      fails_builtin hS b12, fails_builtin hS b13, fails_builtin hS b14, fails_builtin hS b15,
      fails_builtin hS b16, fails_builtin hS b17, fails_builtin hS b18, fails_builtin hS b19,
      fails_builtin hS b20, fails_builtin hS b21, fails_builtin hS b22, by simp⟩

theorem sndAt_type (s : List σ) : SndAt leaf Step nt G.type s (TypeAt Step type) := by
  refine .altsCons (.variant ?_) fun _ => .altsCons ?_ fun _ => .altsNil
  · refine .altsCons (.kwAs hS fun _ _ => ⟨by simp only [type, singleType]; rfl,
      noJoin_head (by decide)⟩) fun h =>
      .altsCons (.variant (.withReads (.mono (sndAt_nonAnyType hS hN s) fun _ _ _ h1 hr =>
        ⟨?_, h1.2⟩))) fun _ => .altsNil
    simp only [type, singleType]
    refine ⟨h1.1, ?_⟩
    simp
    exact hr.not_prefix (fails_kwAs hS h)
  · refine sndAt_mayBeNull
      (L := fun ms => parens (sepBy (tok c!"or") (unionMembers ms))) hS
      (.mono (snd_unionType hS hN s) fun _ _ _ h => ⟨h, ?_⟩)
      fun _ _ _ h => by simp only [type]; exact h
    obtain ⟨_, _, rfl, rfl, -⟩ := h
    exact noJoin_head (by decide)

theorem snd_type : Snd leaf Step nt G.type type := fun s => .mono (sndAt_type hS hN s) fun _ _ _ h => h.1

theorem snd_unionMemberType : Snd leaf Step nt G.unionMemberType unionMember := by
  refine fun s => .altsCons ?_ fun _ => .altsCons ?_ fun _ => .altsNil
  · exact .bind (snd_attrs hS hN _) fun as _ _ _ h1 => .bindPure (f := fun t => UnionMember.single as t)
      (.mono (sndAt_nonAnyType hS hN _) fun _ _ _ h2 => by
        simp only [unionMember]; exact seq_intro h1 h2.1)
  · exact .bind (snd_unionType hS hN s) fun _ _ _ _ h => .bindPure (.mono (Snd.optPunct hS _ _)
      fun _ _ _ h2 => by simp only [unionMember]; exact seq_intro h h2)

variable (Step) in
/-- A type with its attributes has been read. -/
def AttributedAt : AttributedType → List Str → List σ → Prop
  | .mk as t, ls, r => ∃ a b, ls = a ++ b ∧ attributes as a ∧ type t b ∧ NoJoin Step b r

omit hS hN in
omit [DecidableEq σ] in
theorem AttributedAt.lang {t : AttributedType} {ls : List Str} {r : List σ}
    (h : AttributedAt Step t ls r) : attributedType t ls := by
  obtain ⟨as, t⟩ := t
  obtain ⟨a, b, rfl, h1, h2, -⟩ := h
  simp only [attributedType]
  exact seq_intro h1 h2

omit hS hN in
omit [DecidableEq σ] in
theorem AttributedAt.named {t : AttributedType} {ls : List Str} {m r : List σ} {i w : Str}
    (h : AttributedAt Step t ls m) (hw : Step m w r) (hn : name i [w]) :
    namedAttributed t i (ls ++ [w]) := by
  obtain ⟨as, t⟩ := t
  obtain ⟨a, b, rfl, h1, h2, h3⟩ := h
  simp only [namedAttributed]
  rw [List.append_assoc]
  exact seq_intro h1 ⟨b, [w], rfl, h2, hn, h3 w r hw⟩

theorem sndAt_attributedType (s : List σ) :
    SndAt leaf Step nt G.attributedType s (AttributedAt Step) :=
  .bind (snd_attrs hS hN s) fun as _ _ _ h1 => .bindPure (f := fun t => AttributedType.mk as t)
    (.mono (sndAt_type hS hN _) fun _ _ _ h2 => ⟨_, _, rfl, h1, h2.1, h2.2⟩)

theorem snd_returnType : Snd leaf Step nt G.returnType returnType :=
  snd_returnTypeOf hS hN (snd_type hS hN)

theorem sndAt_returnType (s : List σ) : SndAt leaf Step nt G.returnType s (TypeAt Step returnType) := by
  refine .altsCons (.kwAs hS fun _ _ => ⟨by simp only [returnType]; rfl, noJoin_head (by decide)⟩)
    fun h => .altsCons (.variant (.withReads (.mono (sndAt_type hS hN s) fun _ _ _ h1 hr =>
      ⟨?_, h1.2⟩))) fun _ => .altsNil
  simp only [returnType]
  refine ⟨h1.1, ?_⟩
  simp
  exact hr.not_prefix (fails_kwAs hS h)

omit hN in
theorem sndAt_constType (s : List σ) : SndAt leaf Step nt G.constType s (TypeAt Step constType) := by
  refine .altsCons ?_ fun h1 => .altsCons ?_ fun h2 => .altsCons ?_ fun h3 => .altsCons ?_ fun h4 =>
    .altsCons ?_ fun h5 => .altsCons ?_ fun _ => .altsNil
  · exact sndAt_mayBeNull hS (sndAt_integerType hS _) fun _ _ _ h => h
  · exact sndAt_mayBeNull hS (sndAt_floatingPointType hS _) fun _ _ _ h => h
  · exact sndAt_mayBeNull (L := fun _ => tok c!"boolean") hS
      (.kw hS fun _ _ => ⟨rfl, noJoin_head (by decide)⟩) fun _ _ _ h => h
  · exact sndAt_mayBeNull (L := fun _ => tok c!"byte") hS
      (.kw hS fun _ _ => ⟨rfl, noJoin_head (by decide)⟩) fun _ _ _ h => h
  · exact sndAt_mayBeNull (L := fun _ => tok c!"octet") hS
      (.kw hS fun _ _ => ⟨rfl, noJoin_head (by decide)⟩) fun _ _ _ h => h
  · refine sndAt_mayBeNull (L := typeName _) hS ?_ fun _ _ _ h => h
    replace h1 := fails_mayBeNull h1
    replace h2 := fails_mayBeNull h2
    refine sndAt_typeName hS ?_ (by decide) h1 h2
    have g1 := fails_integerType_one hS h1
    have g2 := fails_floatingPointType_one hS h2
    simp only [List.forall_mem_cons]
    exact ⟨g1.1, g1.2, g2.1, g2.2, fails_kw hS (fails_mayBeNull h3), fails_kw hS (fails_mayBeNull h4),
      fails_kw hS (fails_mayBeNull h5), by simp⟩

end
end
end Verif
