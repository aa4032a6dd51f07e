import Verif.Proof.Complete

/-!
# Completeness: types
-/

set_option linter.unusedSectionVars false

namespace Verif
open Nom Spec

variable {σ α β : Type} [DecidableEq σ] {leaf : ∀ α, Leaf α → P σ α}
  {Step : List σ → Str → List σ → Prop} {s m r : List σ}

variable (Step) in
/-- A type with the spelling `ls` ends before `r`. -/
def TF (ls : List Str) (r : List σ) : Prop :=
  NoJoin Step ls r ∧ NotNext Step r c!"?" ∧ NotNext Step r c!"<"

/-- The lexemes that may continue a type. -/
def continuers : List Str :=
  [c!"?", c!"<", c!"long", c!"short", c!"float", c!"double"]

theorem solid_continuer : ∀ w ∈ continuers, Solid w := by
  simp only [continuers, List.forall_mem_cons]
  exact ⟨solid_punct (p := .qMark) (by decide) (by decide),
    solid_punct (p := .lessThan) (by decide) (by decide),
    solid_kw .long, solid_kw .short, solid_kw .float, solid_kw .double, by simp⟩

theorem twoWord_last {ls : List Str} {w : Str} (h : ls ++ [w] ∈ twoWordTypes) :
    w ∈ continuers.drop 2 := by
  have : ∀ l ∈ twoWordTypes, ∀ w ∈ l.getLast?, w ∈ continuers.drop 2 := by decide
  exact this _ h w (by simp)

theorem word_kw (k : Kw) (h : k ≠ .negInfinity := by decide) : name k.text [k.text] :=
  ⟨kw_word k h, .inl rfl⟩

section
variable (hE : Exact leaf Step)
include hE

theorem noJoin_of_step {w : Str} {ls : List Str} {r' : List σ} (hw : Solid w) (h : Step r w r')
    (hn : w ∉ continuers.drop 2) : NoJoin Step ls r := fun w' r'' h' h'' =>
  notNext hE hw h (solid_continuer w' (List.mem_of_mem_drop (twoWord_last h'')))
    (by rintro rfl; exact hn (twoWord_last h'')) r'' h'

theorem tf_of_step {w : Str} {ls : List Str} {r' : List σ} (hw : Solid w) (h : Step r w r')
    (hn : w ∉ continuers) : TF Step ls r := by
  have no : ∀ w' ∈ continuers, NotNext Step r w' := fun w' hw' =>
    notNext hE hw h (solid_continuer w' hw') (by rintro rfl; exact hn hw')
  exact ⟨fun w' r'' h' h'' => no w' (List.mem_of_mem_drop (twoWord_last h'')) r'' h', no _ (by decide), no _ (by decide)⟩

theorem tf_punct {p : Punct} {ls : List Str} {r' : List σ} (h : Step r p.text r')
    (hn : p ≠ .dot ∧ p ≠ .minus ∧ p ≠ .qMark ∧ p ≠ .lessThan := by decide) : TF Step ls r :=
  tf_of_step hE (solid_punct hn.1 hn.2.1) h
    (by revert hn; cases p <;> simp [continuers, Punct.text])

theorem okNull {g : G α} {f : α → Bool → β} {a : α} {q : Bool} (h : Ok leaf g s m a)
    (hq : RL Step (optTok q c!"?") m r) (hn : NotNext Step r c!"?") :
    Ok leaf (G.mayBeNull f g) s r (f a q) := by
  refine .bind h (.bind ?_ .pure)
  cases q with
  | true => exact .optPunctT (okPunct hE (p := .qMark) (rl_tok.1 hq))
  | false =>
    cases rl_eps.1 hq
    exact .optPunctF (koPunct_of hE (k := .qMark) hn)

/-- Before the `?`, if there is one, a type ends too. -/
theorem tf_inner {l l' : List Str} {q : Bool} (h : TF Step (l ++ l') r) (hr : Reads Step m l' r)
    (hq : optTok q c!"?" l') : NoJoin Step l m := by
  cases q with
  | true =>
    cases hq
    exact noJoin_of_step hE (solid_punct (p := .qMark) (by decide) (by decide)) (reads_one.1 hr) (by decide)
  | false =>
    cases hq
    cases reads_nil.1 hr
    simpa using h.1

theorem okOptKw {k : Kw} {b : Bool} (h : RL Step (optTok b k.text) s m)
    (hn : b = false → NotNext Step s k.text) : Ok leaf (G.optKw k) s m b := by
  cases b with
  | true => exact .optKwT (okKw hE (rl_tok.1 h))
  | false =>
    cases rl_eps.1 h
    exact .optKwF (koKw_of hE (hn rfl))

omit hE in
theorem kw_inj {k k' : Kw} (h : k.text = k'.text) : k = k' := by
  revert h; cases k <;> cases k' <;> first | exact fun _ => rfl | decide

theorem notNext_kw {k k' : Kw} (h : Step s k.text r) (hne : k ≠ k' := by decide) :
    NotNext Step s k'.text :=
  notNext hE (solid_kw k) h (solid_kw k') fun h => hne (kw_inj h)

theorem koKw' {k k' : Kw} (h : Step s k.text r) (hne : k ≠ k' := by decide) : Ko leaf (G.kw k') s :=
  koKw_of hE (notNext_kw hE h hne)

/-! ## Integers and floats -/

theorem okInteger {t : IntegerType} {ls : List Str} (h : integerType t ls) (hr : Reads Step s ls r)
    (hj : NoJoin Step ls r) : Ok leaf G.integerType s r t := by
  cases t with
  | longLong u =>
    obtain ⟨m1, h1, m2, h2, h3⟩ : ∃ m1, RL Step (optTok u c!"unsigned") s m1 ∧ ∃ m2, Step m1 c!"long" m2 ∧
      Step m2 c!"long" r := by simpa only [integerType, rl_seq, rl_tok] using hr.rl h
    refine .here (.bind (okOptKw hE (k := .unsigned) h1 ?_) (.bind (okKw hE (k := .long) h2)
      (.bind (okKw hE (k := .long) h3) .pure)))
    rintro rfl; cases rl_eps.1 h1; exact notNext_kw hE (k := .long) h2
  | long u =>
    obtain ⟨m1, h1, h2⟩ : ∃ m1, RL Step (optTok u c!"unsigned") s m1 ∧ Step m1 c!"long" r := by
      simpa only [integerType, rl_seq, rl_tok] using hr.rl h
    have h0 : Ok leaf (G.optKw .unsigned) s m1 u := okOptKw hE (k := .unsigned) h1
      (by rintro rfl; cases rl_eps.1 h1; exact notNext_kw hE (k := .long) h2)
    have h3 : NotNext Step r c!"long" := fun r' h3 => by
      obtain ⟨_, _, rfl, h4, rfl⟩ := h
      cases u <;> cases h4 <;> exact hj _ _ h3 (by decide)
    exact .next (.right h0 (.right (okKw hE (k := .long) h2) (.left (koKw_of hE (k := .long) h3)))) <|
      .here (.bind h0 (.bind (okKw hE (k := .long) h2) .pure))
  | short u =>
    obtain ⟨m1, h1, h2⟩ : ∃ m1, RL Step (optTok u c!"unsigned") s m1 ∧ Step m1 c!"short" r := by
      simpa only [integerType, rl_seq, rl_tok] using hr.rl h
    have h0 : Ok leaf (G.optKw .unsigned) s m1 u := okOptKw hE (k := .unsigned) h1
      (by rintro rfl; cases rl_eps.1 h1; exact notNext_kw hE (k := .short) h2)
    have h3 : Ko leaf (G.kw .long) m1 := koKw' hE (k := .short) h2
    exact .next (.right h0 (.left h3)) <| .next (.right h0 (.left h3)) <|
      .here (.bind h0 (.bind (okKw hE (k := .short) h2) .pure))

theorem okFloating {t : FloatingPointType} {ls : List Str} (h : floatingPointType t ls)
    (hr : Reads Step s ls r) : Ok leaf G.floatingPointType s r t := by
  cases t with
  | float u =>
    obtain ⟨m1, h1, h2⟩ : ∃ m1, RL Step (optTok u c!"unrestricted") s m1 ∧ Step m1 c!"float" r := by
      simpa only [floatingPointType, rl_seq, rl_tok] using hr.rl h
    refine .here (.bind (okOptKw hE (k := .unrestricted) h1 ?_) (.bind (okKw hE (k := .float) h2) .pure))
    rintro rfl; cases rl_eps.1 h1; exact notNext_kw hE (k := .float) h2
  | double u =>
    obtain ⟨m1, h1, h2⟩ : ∃ m1, RL Step (optTok u c!"unrestricted") s m1 ∧ Step m1 c!"double" r := by
      simpa only [floatingPointType, rl_seq, rl_tok] using hr.rl h
    have h0 : Ok leaf (G.optKw .unrestricted) s m1 u := okOptKw hE (k := .unrestricted) h1
      (by rintro rfl; cases rl_eps.1 h1; exact notNext_kw hE (k := .double) h2)
    exact .next (.right h0 (.left (koKw' hE (k := .double) h2))) <|
      .here (.bind h0 (.bind (okKw hE (k := .double) h2) .pure))

/-! ## The alternatives of a type that do not apply -/

/-- A keyword and a symbol, not both there. -/
theorem koKwPunct {k : Kw} {p : Punct} {w : Str} {f : Unit → G α} (hw : Solid w) (h : Step s w m)
    (hn : w = k.text → NotNext Step m p.text) :
    Ko leaf (G.kw k >>= fun _ => G.punct p >>= f) s := by
  by_cases he : w = k.text
  · subst he
    exact .right (okKw hE h) (.left (koPunct_of hE (hn rfl)))
  · exact .left (koKw hE hw h he)

/-- A keyword in front of `< ... >`, not there. -/
theorem koGeneric {k : Kw} {w : Str} {g : G α} {f : α → G β} (hw : Solid w) (h : Step s w m)
    (hn : w = k.text → NotNext Step m c!"<") :
    Ko leaf (G.kw k >>= fun _ => G.generics g >>= f) s := by
  by_cases he : w = k.text
  · subst he
    exact .right (okKw hE h) (.left (.left (koPunct_of hE (k := .lessThan) (hn rfl))))
  · exact .left (koKw hE hw h he)

theorem koGeneric' {k : Kw} {w : Str} {g : G α} (hw : Solid w) (h : Step s w m)
    (hn : w = k.text → NotNext Step m c!"<") :
    Ko leaf (G.kw k >>= fun _ => G.generics g) s := by
  by_cases he : w = k.text
  · subst he
    exact .right (okKw hE h) (.left (koPunct_of hE (k := .lessThan) (hn rfl)))
  · exact .left (koKw hE hw h he)

/-- An optional keyword and another, not there. -/
theorem koOptKw {k k' : Kw} {w : Str} {f : Bool → Unit → G α} (hw : Solid w) (h : Step s w m)
    (hne : w ≠ k'.text) (hn : w = k.text → NotNext Step m k'.text) :
    Ko leaf (G.optKw k >>= fun b => G.kw k' >>= f b) s := by
  by_cases he : w = k.text
  · subst he
    exact .right (.optKwT (okKw hE h)) (.left (koKw_of hE (hn rfl)))
  · exact .right (.optKwF (koKw hE hw h he)) (.left (koKw hE hw h hne))

theorem koInteger {w : Str} (hw : Solid w) (h : Step s w m) (h1 : w ≠ c!"long") (h2 : w ≠ c!"short")
    (hn : w = c!"unsigned" → NotNext Step m c!"long" ∧ NotNext Step m c!"short") :
    Ko leaf G.integerType s :=
  .altsCons (koOptKw hE (k := .unsigned) (k' := .long) hw h h1 fun e => (hn e).1) <|
  .altsCons (koOptKw hE (k := .unsigned) (k' := .long) hw h h1 fun e => (hn e).1) <|
  .altsCons (koOptKw hE (k := .unsigned) (k' := .short) hw h h2 fun e => (hn e).2) .altsNil

theorem koFloating {w : Str} (hw : Solid w) (h : Step s w m) (h1 : w ≠ c!"float") (h2 : w ≠ c!"double")
    (hn : w = c!"unrestricted" → NotNext Step m c!"float" ∧ NotNext Step m c!"double") :
    Ko leaf G.floatingPointType s :=
  .altsCons (koOptKw hE (k := .unrestricted) (k' := .float) hw h h1 fun e => (hn e).1) <|
  .altsCons (koOptKw hE (k := .unrestricted) (k' := .double) hw h h2 fun e => (hn e).2) .altsNil

theorem koBuiltin {w : Str} {b : Builtin} (hw : Solid w) (h : Step s w m) (h1 : w ≠ builtinWord b) :
    Ko leaf (G.builtin b) s := by
  refine .mayBeNull (.kwAs (koKw hE hw h ?_))
  cases b <;> exact h1

end

end Verif
