import Verif.Proof.CompleteArg

/-!
# Completeness: literals
-/

set_option linter.unusedSectionVars false

namespace Verif
open Nom Spec

variable {σ α β : Type} [DecidableEq σ] {leaf : ∀ α, Leaf α → P σ α}
  {Step : List σ → Str → List σ → Prop} {s m r : List σ}

theorem rl_literal {re : Regex} {v : Str} : RL Step (literal re v) s r ↔ re.Matches v ∧ Step s v r :=
  ⟨by rintro ⟨_, ⟨h, rfl⟩, h'⟩; exact ⟨h, reads_one.1 h'⟩, fun h => ⟨[v], ⟨h.1, rfl⟩, .one h.2⟩⟩

section
variable (hE : Exact leaf Step)
include hE

theorem okKwAs {k : Kw} {a : α} (h : Step s k.text r) : Ok leaf (G.kwAs k a) s r a :=
  .bind (okKw hE h) .pure

theorem stop_notNext {w : Str} (hs : StopAt Step r) (hw : Solid w) (hn : w ∉ closers) :
    NotNext Step r w := by
  rcases hs with rfl | ⟨p, r', hp, hs⟩
  · exact fun _ => hE.eof hw
  · exact notNext hE (solid_closer hp) hs hw (by rintro rfl; exact hn hp)

theorem tf_stop {ls : List Str} (hs : StopAt Step r) : TF Step ls r := by
  have no : ∀ w' ∈ continuers, NotNext Step r w' := fun w' hw' =>
    stop_notNext hE hs (solid_continuer w' hw') (by revert w'; decide)
  exact ⟨fun w' r'' h' h'' => no w' (List.mem_of_mem_drop (twoWord_last h'')) r'' h', no _ (by decide), no _ (by decide)⟩

theorem okIntegerLit {v : IntegerLit} (h : RL Step (integerLit v) s r) (hs : StopAt Step r) :
    Ok leaf G.integerLit s r v := by
  cases v with
  | dec v =>
    obtain ⟨h1, h2⟩ := rl_literal.1 h
    exact .here (.variant (hE.dec h1 h2 hs).2)
  | hex v =>
    obtain ⟨h1, h2⟩ := rl_literal.1 h
    obtain ⟨-, h3, h4⟩ := hE.hex h1 h2 hs
    exact .next (.variant h3) (.here (.variant h4))
  | oct v =>
    obtain ⟨h1, h2⟩ := rl_literal.1 h
    obtain ⟨-, h3, h4, h5⟩ := hE.oct h1 h2 hs
    exact .next (.variant h3) (.next (.variant h4) (.here (.variant h5)))

/-- A number is no float. -/
theorem integer_notFloat {v : IntegerLit} (h : RL Step (integerLit v) s r) (hs : StopAt Step r) :
    Ko leaf (.leaf .float) s ∧ ∃ w, Number w ∧ Step s w r := by
  cases v with
  | dec v =>
    obtain ⟨h1, h2⟩ := rl_literal.1 h
    exact ⟨(hE.dec h1 h2 hs).1, v, .inl h1, h2⟩
  | hex v =>
    obtain ⟨h1, h2⟩ := rl_literal.1 h
    exact ⟨(hE.hex h1 h2 hs).1, v, .inr (.inl h1), h2⟩
  | oct v =>
    obtain ⟨h1, h2⟩ := rl_literal.1 h
    exact ⟨(hE.oct h1 h2 hs).1, v, .inr (.inr (.inl h1)), h2⟩

theorem okFloatLit {v : FloatLit} (h : RL Step (floatLit v) s r) (hs : StopAt Step r) :
    Ok leaf G.floatLit s r v := by
  cases v with
  | value v =>
    obtain ⟨h1, h2⟩ := rl_literal.1 h
    exact .here (.variant (hE.float h1 h2 hs))
  | negInfinity =>
    have h := rl_tok.1 h
    exact .next (.variant (koNum hE (solid_kw .negInfinity) h _ (by simp))) <|
      .here (okKwAs hE (k := .negInfinity) h)
  | infinity =>
    have h := rl_tok.1 h
    exact .next (.variant (koNum hE (solid_kw .infinity) h _ (by simp))) <|
      .next (.kwAs (koKw' hE (k := .infinity) h)) <| .here (okKwAs hE (k := .infinity) h)
  | nan =>
    have h := rl_tok.1 h
    exact .next (.variant (koNum hE (solid_kw .nan) h _ (by simp))) <|
      .next (.kwAs (koKw' hE (k := .nan) h)) <| .next (.kwAs (koKw' hE (k := .nan) h)) <|
      .here (okKwAs hE (k := .nan) h)

theorem okBooleanLit {b : Bool} (h : RL Step (booleanLit b) s r) : Ok leaf G.booleanLit s r b := by
  cases b with
  | true => exact .here (okKwAs hE (k := .true) (rl_tok.1 h))
  | false =>
    have h := rl_tok.1 h
    exact .next (.kwAs (koKw' hE (k := .false) h)) <| .here (okKwAs hE (k := .false) h)

theorem koBooleanLit {w : Str} (hw : Solid w) (h : Step s w r)
    (h' : w ∉ [c!"true", c!"false"] := by decide) : Ko leaf G.booleanLit s := by
  simp only [List.mem_cons, not_or] at h'
  exact .altsCons (.kwAs (koKw hE hw h h'.1)) (.altsCons (.kwAs (koKw hE hw h h'.2.1)) .altsNil)

theorem koIntegerLit {w : Str} (hw : Solid w) (h : Step s w r) : Ko leaf G.integerLit s :=
  .altsCons (.variant (koNum hE hw h _ (by simp))) <| .altsCons (.variant (koNum hE hw h _ (by simp))) <|
  .altsCons (.variant (koNum hE hw h _ (by simp))) .altsNil

theorem koFloatLit {w : Str} (hw : Solid w) (h : Step s w r)
    (h' : w ∉ [c!"-Infinity", c!"Infinity", c!"NaN"]) : Ko leaf G.floatLit s := by
  simp only [List.mem_cons, not_or] at h'
  exact .altsCons (.variant (koNum hE hw h _ (by simp))) <|
    .altsCons (.kwAs (koKw hE hw h h'.1)) <| .altsCons (.kwAs (koKw hE hw h h'.2.1)) <|
    .altsCons (.kwAs (koKw hE hw h h'.2.2.1)) .altsNil

/-- The literals that are keywords or symbols fail on a number. -/
theorem ko_number {w : Str} (hn : Number w) (h : Step s w r) (hs : StopAt Step r) :
    Ko leaf G.booleanLit s ∧ Ko leaf G.emptyArrayLit s ∧ Ko leaf G.emptyDictionaryLit s ∧
      (Ko leaf (.leaf .float) s → Ko leaf G.floatLit s) := by
  obtain ⟨h1, h2, -, -⟩ := hE.num hn h hs
  exact ⟨.altsCons (.kwAs (h1 _)) (.altsCons (.kwAs (h1 _)) .altsNil), .left (h2 _ (by simp [Plain])),
    .left (h2 _ (by simp [Plain])), fun h3 => .altsCons (.variant h3) <| .altsCons (.kwAs (h1 _)) <|
    .altsCons (.kwAs (h1 _)) <| .altsCons (.kwAs (h1 _)) .altsNil⟩

omit hE in
theorem floatLit_cases {v : FloatLit} (h : RL Step (floatLit v) s r) :
    (∃ k : Kw, k ∈ [.negInfinity, .infinity, .nan] ∧ Step s k.text r) ∨ ∃ w, Number w ∧ Step s w r := by
  cases v with
  | value v => exact .inr ⟨v, .inr (.inr (.inr (rl_literal.1 h).1)), (rl_literal.1 h).2⟩
  | negInfinity => exact .inl ⟨.negInfinity, by decide, rl_tok.1 h⟩
  | infinity => exact .inl ⟨.infinity, by decide, rl_tok.1 h⟩
  | nan => exact .inl ⟨.nan, by decide, rl_tok.1 h⟩

/-- What fails in front of a float literal. -/
theorem ko_float {v : FloatLit} (h : RL Step (floatLit v) s r) (hs : StopAt Step r) :
    Ko leaf G.booleanLit s ∧ Ko leaf G.emptyArrayLit s ∧ Ko leaf G.emptyDictionaryLit s := by
  rcases floatLit_cases h with ⟨k, hk, h⟩ | ⟨w, hw, h⟩
  · refine ⟨koBooleanLit hE (solid_kw k) h ?_, .left (koPunct hE (solid_kw k) h ?_),
      .left (koPunct hE (solid_kw k) h ?_)⟩ <;> simp at hk <;> rcases hk with rfl | rfl | rfl <;> decide
  · obtain ⟨h1, h2, h3, -⟩ := ko_number hE hw h hs
    exact ⟨h1, h2, h3⟩

theorem okDefaultValue {v : DefaultValue} (h : RL Step (defaultValue v) s r) (hs : StopAt Step r) :
    Ok leaf G.defaultValue s r v := by
  have pb : Solid c!"[" := solid_punct (p := .openBracket) (by decide) (by decide)
  have pc : Solid c!"{" := solid_punct (p := .openBrace) (by decide) (by decide)
  cases v with
  | boolean b => exact .here (.variant (okBooleanLit hE h))
  | emptyArray =>
    obtain ⟨m, h1, h2⟩ := rl_seq.1 h
    have h1 := rl_tok.1 h1
    exact .next (.variant (koBooleanLit hE pb h1)) <| .here (.variant
      (f := fun _ => DefaultValue.emptyArray) (a := ())
      (.bind (okPunct hE (p := .openBracket) h1) (.bind (okPunct hE (p := .closeBracket) (rl_tok.1 h2)) .pure)))
  | emptyDictionary =>
    obtain ⟨m, h1, h2⟩ := rl_seq.1 h
    have h1 := rl_tok.1 h1
    exact .next (.variant (koBooleanLit hE pc h1)) <|
      .next (.variant (.left (koPunct hE pc h1 (by decide)))) <| .here (.variant
      (f := fun _ => DefaultValue.emptyDictionary) (a := ())
      (.bind (okPunct hE (p := .openBrace) h1) (.bind (okPunct hE (p := .closeBrace) (rl_tok.1 h2)) .pure)))
  | float v =>
    obtain ⟨h1, h2, h3⟩ := ko_float hE h hs
    exact .next (.variant h1) <| .next (.variant h2) <| .next (.variant h3) <|
      .here (.variant (okFloatLit hE h hs))
  | integer v =>
    obtain ⟨h0, w, hw, h'⟩ := integer_notFloat hE h hs
    obtain ⟨h1, h2, h3, h4⟩ := ko_number hE hw h' hs
    exact .next (.variant h1) <| .next (.variant h2) <| .next (.variant h3) <| .next (.variant (h4 h0)) <|
      .here (.variant (okIntegerLit hE h hs))
  | null =>
    have h := rl_tok.1 h
    exact .next (.variant (koBooleanLit hE (solid_kw .null) h)) <|
      .next (.variant (.left (koPunct hE (solid_kw .null) h (by decide)))) <|
      .next (.variant (.left (koPunct hE (solid_kw .null) h (by decide)))) <|
      .next (.variant (koFloatLit hE (solid_kw .null) h (by decide))) <|
      .next (.variant (koIntegerLit hE (solid_kw .null) h)) <| .here (okKwAs hE (k := .null) h)
  | string v =>
    obtain ⟨h1, h⟩ := rl_string.1 h
    have hw : Solid ('"' :: v ++ ['"']) := .inr (.inr (.inl ⟨v, h1, rfl⟩))
    exact .next (.variant (koBooleanLit hE hw h (by simp))) <|
      .next (.variant (.left (koPunct hE hw h (by simp [Punct.text])))) <|
      .next (.variant (.left (koPunct hE hw h (by simp [Punct.text])))) <|
      .next (.variant (koFloatLit hE hw h (by simp))) <|
      .next (.variant (koIntegerLit hE hw h)) <| .next (.kwAs (koKw hE hw h (by simp [Kw.text]))) <|
      .here (.variant (okString hE h1 h))

theorem okConstValue {v : ConstValue} (h : RL Step (constValue v) s r) (hs : StopAt Step r) :
    Ok leaf G.constValue s r v := by
  cases v with
  | boolean b => exact .here (.variant (okBooleanLit hE h))
  | float v =>
    obtain ⟨h1, -⟩ := ko_float hE h hs
    exact .next (.variant h1) <| .here (.variant (okFloatLit hE h hs))
  | integer v =>
    obtain ⟨h0, w, hw, h'⟩ := integer_notFloat hE h hs
    obtain ⟨h1, -, -, h4⟩ := ko_number hE hw h' hs
    exact .next (.variant h1) <| .next (.variant (h4 h0)) <| .here (.variant (okIntegerLit hE h hs))
  | null =>
    have h := rl_tok.1 h
    exact .next (.variant (koBooleanLit hE (solid_kw .null) h)) <|
      .next (.variant (koFloatLit hE (solid_kw .null) h (by decide))) <|
      .next (.variant (koIntegerLit hE (solid_kw .null) h)) <| .here (okKwAs hE (k := .null) h)

theorem okDefault {v : Option DefaultValue} (h : RL Step (Spec.default v) s r) (hs : StopAt Step r) :
    Ok leaf (.opt G.default) s r v := by
  cases v with
  | none =>
    cases rl_eps.1 h
    exact .none (.left (koPunct_of hE (k := .assign) (stop_notNext hE hs (solid_punct (by decide)
      (by decide)) (by decide))))
  | some v =>
    obtain ⟨m, h1, h2⟩ := rl_seq.1 h
    exact .some (.bind (okPunct hE (p := .assign) (rl_tok.1 h1)) (okDefaultValue hE h2 hs))

end

end Verif
