import Verif.Proof.Parts
import Verif.Proof.SizeOf
import Verif.Properties.Lexical
import Verif.Spec.Longest

/-!
# The longest prefix is taken

`Far g s r`: the parser `g` succeeds on `s` and leaves no more than `r`.
-/

namespace Verif.Longest
open Nom Spec

variable {α β : Type} {s m r : Str}

local notation "hE" => exact_char

abbrev Okc (g : G α) (s r : Str) (a : α) : Prop := Ok charLeaf g s r a
abbrev Koc (g : G α) (s : Str) : Prop := Ko charLeaf g s

def Far (g : G α) (s r : Str) : Prop := ∃ r' a, Okc g s r' a ∧ r'.length ≤ r.length

theorem total {g : G α} {b : Bool} (h : Guarded true g b) (s : Str) : (∃ r a, Okc g s r a ∧ r.length ≤ s.length) ∨ Koc g s := by
  have := parseWith_fine charLeaf_fine h s
  rw [G.parseWith] at this
  cases e : g.run charLeaf (ntLim charLeaf) s with
  | ok r a => rw [e] at this; exact .inl ⟨r, a, e, this.1.length_le⟩
  | diverge => rw [e] at this; exact this.elim
  | err e' =>
    rw [e] at this
    cases e' with
    | error p k => exact .inr ⟨p, k, e⟩
    | _ => exact this.elim

theorem Far.ofOk {g : G α} {a : α} (h : Okc g s r a) : Far g s r := ⟨r, a, h, Nat.le_refl _⟩

theorem Far.mono {g : G α} (h : Far g s m) (hl : m.length ≤ r.length) : Far g s r := by
  obtain ⟨r', a, h1, h2⟩ := h
  exact ⟨r', a, h1, Nat.le_trans h2 hl⟩

theorem Far.here {g : G α} {gs : List (G α)} (h : Far g s r) : Far (G.alts (g :: gs)) s r := by
  obtain ⟨r', a, h1, h2⟩ := h
  exact ⟨r', a, .here h1, h2⟩

theorem Far.next {g : G α} {gs : List (G α)} (h' : Koc g s) (h : Far (G.alts gs) s r) : Far (G.alts (g :: gs)) s r := by
  obtain ⟨r', a, h1, h2⟩ := h
  exact ⟨r', a, .next h' h1, h2⟩

/-- An alternative that fails or goes far enough. -/
theorem Far.skip {g : G α} {gs : List (G α)} (h' : Far g s r ∨ Koc g s) (h : Far (G.alts gs) s r) : Far (G.alts (g :: gs)) s r :=
  h'.elim Far.here fun h' => .next h' h

theorem Far.variant {g : G α} {f : α → β} (h : Far g s r) : Far (G.variant f g) s r := by
  obtain ⟨r', a, h1, h2⟩ := h
  exact ⟨r', _, .variant h1, h2⟩

theorem Far.call {N : NT α} (h : Far (G.body N) s r) : Far (.call N) s r := by
  obtain ⟨r', a, h1, h2⟩ := h
  exact ⟨r', a, okCall hE h1, h2⟩

theorem Far.bind {g : G α} {f : α → G β} {a : α} (h : Okc g s m a) (h' : Far (f a) m r) : Far (g >>= f) s r := by
  obtain ⟨r', b, h1, h2⟩ := h'
  exact ⟨r', b, .bind h h1, h2⟩

/-- The last step before the value is made. -/
theorem Far.last {g : G α} {f : α → β} (h : Far g s r) : Far (g >>= fun a => pure (f a)) s r := h.variant

theorem Far.opt {g : G α} (h : Far g s r) : Far (.opt g) s r := by
  obtain ⟨r', a, h1, h2⟩ := h
  exact ⟨r', _, .some h1, h2⟩

theorem far_opt {g : G α} {b : Bool} (h : Guarded true g b) (s : Str) : Far (.opt g) s s := by
  rcases total h s with ⟨r, a, h, hl⟩ | h
  · exact ⟨r, _, .some h, hl⟩
  · exact .ofOk (.none h)

theorem far_optPunct (p : Punct) (s : Str) : Far (G.optPunct p) s s := (far_opt (guarded_punct p) s).variant

/-- What follows goes at least as far as it begins. -/
theorem Far.bindTotal {g : G α} {f : α → G β} (h : Far g s r) (h' : ∀ a m, Far (f a) m m) : Far (g >>= f) s r := by
  obtain ⟨m, a, h1, h2⟩ := h
  obtain ⟨r', b, h3, h4⟩ := h' a m
  exact ⟨r', b, .bind h1 h3, Nat.le_trans h4 h2⟩

theorem Far.null {g : G α} {f : α → Bool → β} (h : Far g s r) : Far (G.mayBeNull f g) s r :=
  h.bindTotal fun _ m => (far_optPunct _ m).last

/-- A type with or without `?`. -/
theorem far_null {g : G α} {f : α → Bool → β} {a : α} {q : Bool} (h : Okc g s m a)
    (hq : RL CStep (optTok q c!"?") m r) : Far (G.mayBeNull f g) s r := by
  cases q with
  | true => exact .ofOk (.bind h (.bind (.optPunctT (okPunct hE (p := .qMark) (rl_tok.1 hq))) .pure))
  | false => cases rl_eps.1 hq; exact (Far.ofOk h).null

theorem far_null' {g : G α} {f : α → Bool → β} {q : Bool} (hq : RL CStep (optTok q c!"?") m r)
    (h : q = true → ∃ a, Okc g s m a) (h' : q = false → Far g s m) : Far (G.mayBeNull f g) s r := by
  cases q with
  | true => obtain ⟨a, h⟩ := h rfl; exact far_null h hq
  | false => cases rl_eps.1 hq; exact (h' rfl).null

/-! ## One lexeme -/

theorem alts_ko {gs : List (G α)} (h : Koc (G.alts gs) s) : ∀ g ∈ gs, Koc g s ∨ ∀ b, ¬ Guarded true g b := by
  intro g hg
  by_cases hb : ∃ b, Guarded true g b
  · obtain ⟨b, hb⟩ := hb
    refine .inl ?_
    rcases total hb s with ⟨r, a, h1, -⟩ | h1
    · exfalso
      induction gs with
      | nil => cases hg
      | cons g' gs ih =>
        by_cases he : g = g'
        · subst he; exact h.not_ok (OkAt.here h1)
        · simp [he] at hg
          refine ih ?_ hg
          obtain ⟨p, k, h⟩ := h
          simp only [G.alts, G.run, Nom.orElse] at h
          split at h
          · exact ⟨p, k, h⟩
          · next hx =>
            exact (hx p k h).elim
    · exact h1
  · exact .inr fun b hb' => hb ⟨b, hb'⟩

/-- Alternatives one of which succeeds do not fail. -/
theorem alts_ok {gs : List (G α)} {g : G α} {b b' : Bool} (hg : g ∈ gs) (hgs : Guarded true (G.alts gs) b')
    (hb : Guarded true g b) {a : α} (h : Okc g s r a) : ∃ r a, Okc (G.alts gs) s r a := by
  rcases total hgs s with ⟨r, a, h, -⟩ | h'
  · exact ⟨r, a, h⟩
  · rcases alts_ko h' g hg with h1 | h1
    · exact (h1.not_ok h).elim
    · exact (h1 b hb).elim

theorem reads_length {ls : List Str} (h : Reads CStep s ls r) : r.length ≤ s.length := by
  induction h with
  | nil => exact Nat.le_refl _
  | @cons s m r w ls h _ ih =>
    refine Nat.le_trans ih ?_
    obtain ⟨e, h1, -, rfl⟩ := h
    have h2 := Verif.Sizes.strip_length e
    have h3 := congrArg List.length h1
    simp at h3
    have h4 := Verif.Sizes.strip_length s
    omega

/-- Whatever succeeds reads at least the word that is next. -/
theorem far_one {g : G α} {L : α → Lang} (hs : Snd charLeaf CStep (ntLim charLeaf) g L)
    (hd : ∀ a ls, L a ls → ∃ w ls', ls = w :: ls' ∧ Solid w) {w : Str} (hw : Solid w) (h : CStep s w m)
    (ho : ∃ r a, Okc g s r a) : Far g s m := by
  obtain ⟨r, a, ho⟩ := ho
  obtain ⟨ls, h1, h2⟩ := hs s r a ho
  obtain ⟨w', ls', rfl, hw'⟩ := hd a ls h2
  refine ⟨r, a, ho, ?_⟩
  cases h1 with
  | cons h3 h4 =>
    obtain rfl := exact_char.uniq h h3 (.inl hw) (.inl hw')
    obtain rfl := exact_char.det h h3
    exact reads_length h4

/-! ## Numbers -/

theorem numChar_noTrivia {c : Char} (h : NumChar c) : c ∉ [' ', '\t', '\n', '\r', '/'] := by
  intro hc
  have : ∀ c ∈ [' ', '\t', '\n', '\r', '/'], ¬ NumChar c := by unfold NumChar; decide
  exact this c hc h

/-- The longer number leaves less. -/
theorem number_longer {w w' e e' : Str} (hn : Number w') (h : w ++ e = w' ++ e') (hl : w.length ≤ w'.length) :
    (strip e').length ≤ (strip e).length := by
  obtain ⟨x, rfl⟩ : w <+: w' := List.prefix_of_prefix_length_le (h ▸ List.prefix_append w e) (List.prefix_append w' e') hl
  rw [List.append_assoc] at h
  have h := List.append_cancel_left h
  subst h
  cases x with
  | nil => exact Nat.le_refl _
  | cons c x =>
    have hc : NumChar c := hn.chars c (by simp)
    have : strip (c :: x ++ e') = c :: x ++ e' := triviaStart fun d hd h => by
      simp at h
      exact numChar_noTrivia hc (h ▸ hd)
    rw [this]
    have := Sizes.strip_length e'
    simp
    omega

/-- A number leaf and the number it reads. -/
structure NumLeaf (l : Leaf Str) (re : Regex) : Prop where
  number : ∀ w, re.Matches w → Number w
  text : ∀ {w v}, LeafText l w v ↔ w = v ∧ re.Matches v
  fin : ∀ {w e}, LeafEnd l w e ↔ Longest re w e
  fails : ∀ s, Fails (charLeaf Str l) s ↔ Properties.NoMatch re s

theorem numDec : NumLeaf .dec Regex.dec := ⟨fun _ => .inl, Iff.rfl, Iff.rfl, Properties.C10_fails⟩
theorem numHex : NumLeaf .hex Regex.hex := ⟨fun _ => .inr ∘ .inl, Iff.rfl, Iff.rfl, Properties.C11_fails⟩
theorem numOct : NumLeaf .oct Regex.oct := ⟨fun _ => .inr ∘ .inr ∘ .inl, Iff.rfl, Iff.rfl, Properties.C12_oct_fails⟩
theorem numFloat : NumLeaf .float Regex.float := ⟨fun _ => .inr ∘ .inr ∘ .inr, Iff.rfl, Iff.rfl, Properties.C13_fails⟩

theorem NumLeaf.far {l : Leaf Str} {re : Regex} (hl : NumLeaf l re) {w : Str} (hm : re.Matches w) (h : CStep s w r) :
    Far (.leaf l) s r := by
  obtain ⟨e, h1, -, rfl⟩ := h
  rcases exact_char.total _ l s with ⟨r', v, h2⟩ | h2
  · obtain ⟨w', e', h3, h4, h5, rfl⟩ := charLeaf_ok_iff.1 h2
    obtain ⟨rfl, h4⟩ := hl.text.1 h4
    refine ⟨_, _, h2, number_longer (hl.number _ h4) (h1 ▸ h3) ?_⟩
    exact hl.fin.1 h5 w (h3 ▸ h1 ▸ List.prefix_append _ _) hm
  · exact absurd hm (Properties.noMatch_iff.1 ((hl.fails s).1 h2) w e h1)

/-- A leaf of another kind, none of whose numbers begins the number that is next. -/
theorem NumLeaf.other {l : Leaf Str} {re : Regex} (hl : NumLeaf l re) {w : Str} (hm : ∀ w', w' <+: w → ¬ re.Matches w')
    (h : CStep s w r) : Far (.leaf l) s r ∨ Koc (.leaf l) s := by
  obtain ⟨e, h1, -, rfl⟩ := h
  rcases exact_char.total _ l s with ⟨r', v, h2⟩ | h2
  · obtain ⟨w', e', h3, h4, h5, rfl⟩ := charLeaf_ok_iff.1 h2
    obtain ⟨rfl, h4⟩ := hl.text.1 h4
    refine .inl ⟨_, _, h2, number_longer (hl.number _ h4) (h1 ▸ h3) ?_⟩
    by_cases hn : w'.length ≤ w.length
    · have : w' <+: w := List.prefix_of_prefix_length_le (h3 ▸ List.prefix_append _ _) (h1 ▸ List.prefix_append _ _) hn
      exact absurd h4 (hm w' this)
    · omega
  · exact .inr h2

theorem orVariant {g : G α} {f : α → β} (h : Far g s r ∨ Koc g s) : Far (G.variant f g) s r ∨ Koc (G.variant f g) s :=
  h.imp (·.variant) (FailsAt.variant ·)

/-- Words, symbols, names and strings fail on a number. -/
theorem num_ko {w : Str} (hn : Number w) (h : CStep s w r) :
    (∀ k, Koc (G.kw k) s) ∧ (∀ q, Plain (.punct q) → Koc (G.punct q) s) := by
  obtain ⟨e, h1, h2, rfl⟩ := h
  refine ⟨fun k => ?_, fun q hq => ?_⟩ <;>
    refine charLeaf_fails fun w' e' v' h5 h6 _ => number_solid (w := w') ?_ hn (h1 ▸ h5.symm)
  · exact h6 ▸ solid_kw k
  · exact h6 ▸ solid_punct hq.1 hq.2

theorem far_integerLit {v : IntegerLit} (h : RL CStep (integerLit v) s r) : Far G.integerLit s r := by
  cases v with
  | dec v =>
    obtain ⟨h1, h2⟩ := rl_literal.1 h
    exact .here (numDec.far h1 h2).variant
  | hex v =>
    obtain ⟨h1, h2⟩ := rl_literal.1 h
    exact .skip (orVariant (numDec.other (fun _ => hex_no_dec h1) h2)) (.here (numHex.far h1 h2).variant)
  | oct v =>
    obtain ⟨h1, h2⟩ := rl_literal.1 h
    exact .skip (orVariant (numDec.other (fun _ => oct_no_dec h1) h2)) <|
      .skip (orVariant (numHex.other (fun _ => oct_no_hex h1) h2)) (.here (numOct.far h1 h2).variant)

theorem integer_noFloat {v : IntegerLit} (h : RL CStep (integerLit v) s r) :
    (Far (.leaf .float) s r ∨ Koc (.leaf .float) s) ∧ ∃ w, Number w ∧ CStep s w r := by
  cases v with
  | dec v =>
    obtain ⟨h1, h2⟩ := rl_literal.1 h
    exact ⟨numFloat.other (fun _ => dec_no_float h1) h2, v, .inl h1, h2⟩
  | hex v =>
    obtain ⟨h1, h2⟩ := rl_literal.1 h
    exact ⟨numFloat.other (fun _ => hex_no_float h1) h2, v, .inr (.inl h1), h2⟩
  | oct v =>
    obtain ⟨h1, h2⟩ := rl_literal.1 h
    exact ⟨numFloat.other (fun _ => oct_no_float h1) h2, v, .inr (.inr (.inl h1)), h2⟩

theorem far_floatLit {v : FloatLit} (h : RL CStep (floatLit v) s r) : Far G.floatLit s r := by
  cases v with
  | value v =>
    obtain ⟨h1, h2⟩ := rl_literal.1 h
    exact .here (numFloat.far h1 h2).variant
  | negInfinity =>
    have h := rl_tok.1 h
    exact .ofOk <| .next (.variant (koNum hE (solid_kw .negInfinity) h _ (by simp))) <|
      .here (okKwAs hE (k := .negInfinity) h)
  | infinity =>
    have h := rl_tok.1 h
    exact .ofOk <| .next (.variant (koNum hE (solid_kw .infinity) h _ (by simp))) <|
      .next (.kwAs (koKw' hE (k := .infinity) h)) <| .here (okKwAs hE (k := .infinity) h)
  | nan =>
    have h := rl_tok.1 h
    exact .ofOk <| .next (.variant (koNum hE (solid_kw .nan) h _ (by simp))) <|
      .next (.kwAs (koKw' hE (k := .nan) h)) <| .next (.kwAs (koKw' hE (k := .nan) h)) <|
      .here (okKwAs hE (k := .nan) h)

theorem ko_number' {w : Str} (hn : Number w) (h : CStep s w r) :
    Koc G.booleanLit s ∧ Koc G.emptyArrayLit s ∧ Koc G.emptyDictionaryLit s ∧
      (Far (.leaf .float) s r ∨ Koc (.leaf .float) s → Far G.floatLit s r ∨ Koc G.floatLit s) := by
  obtain ⟨h1, h2⟩ := num_ko hn h
  exact ⟨.altsCons (.kwAs (h1 _)) (.altsCons (.kwAs (h1 _)) .altsNil), .left (h2 _ (by simp [Plain])),
    .left (h2 _ (by simp [Plain])), Or.imp (fun h => .here h.variant) fun h3 => .altsCons (.variant h3) <| .altsCons (.kwAs (h1 _)) <|
    .altsCons (.kwAs (h1 _)) <| .altsCons (.kwAs (h1 _)) .altsNil⟩

theorem ko_float' {v : FloatLit} (h : RL CStep (floatLit v) s r) :
    Koc G.booleanLit s ∧ Koc G.emptyArrayLit s ∧ Koc G.emptyDictionaryLit s := by
  rcases floatLit_cases h with ⟨k, hk, h⟩ | ⟨w, hw, h⟩
  · refine ⟨koBooleanLit hE (solid_kw k) h ?_, .left (koPunct hE (solid_kw k) h ?_),
      .left (koPunct hE (solid_kw k) h ?_)⟩ <;> simp at hk <;> rcases hk with rfl | rfl | rfl <;> decide
  · obtain ⟨h1, h2, h3, -⟩ := ko_number' hw h
    exact ⟨h1, h2, h3⟩

theorem far_defaultValue {v : DefaultValue} (h : RL CStep (defaultValue v) s r) : Far G.defaultValue s r := by
  have pb : Solid c!"[" := solid_punct (p := .openBracket) (by decide) (by decide)
  have pc : Solid c!"{" := solid_punct (p := .openBrace) (by decide) (by decide)
  cases v with
  | boolean b => exact .ofOk (.here (.variant (okBooleanLit hE h)))
  | emptyArray =>
    obtain ⟨m, h1, h2⟩ := rl_seq.1 h
    have h1 := rl_tok.1 h1
    exact .ofOk <| .next (.variant (koBooleanLit hE pb h1)) <| .here (.variant
      (f := fun _ => DefaultValue.emptyArray) (a := ())
      (.bind (okPunct hE (p := .openBracket) h1) (.bind (okPunct hE (p := .closeBracket) (rl_tok.1 h2)) .pure)))
  | emptyDictionary =>
    obtain ⟨m, h1, h2⟩ := rl_seq.1 h
    have h1 := rl_tok.1 h1
    exact .ofOk <| .next (.variant (koBooleanLit hE pc h1)) <|
      .next (.variant (.left (koPunct hE pc h1 (by decide)))) <| .here (.variant
      (f := fun _ => DefaultValue.emptyDictionary) (a := ())
      (.bind (okPunct hE (p := .openBrace) h1) (.bind (okPunct hE (p := .closeBrace) (rl_tok.1 h2)) .pure)))
  | float v =>
    obtain ⟨h1, h2, h3⟩ := ko_float' h
    exact .next (.variant h1) <| .next (.variant h2) <| .next (.variant h3) <|
      .here (far_floatLit h).variant
  | integer v =>
    obtain ⟨h0, w, hw, h'⟩ := integer_noFloat h
    obtain ⟨h1, h2, h3, h4⟩ := ko_number' hw h'
    exact .next (.variant h1) <| .next (.variant h2) <| .next (.variant h3) <| .skip (orVariant (h4 h0)) <|
      .here (far_integerLit h).variant
  | null =>
    have h := rl_tok.1 h
    exact .ofOk <| .next (.variant (koBooleanLit hE (solid_kw .null) h)) <|
      .next (.variant (.left (koPunct hE (solid_kw .null) h (by decide)))) <|
      .next (.variant (.left (koPunct hE (solid_kw .null) h (by decide)))) <|
      .next (.variant (koFloatLit hE (solid_kw .null) h (by decide))) <|
      .next (.variant (koIntegerLit hE (solid_kw .null) h)) <| .here (okKwAs hE (k := .null) h)
  | string v =>
    obtain ⟨h1, h⟩ := rl_string.1 h
    have hw : Solid ('"' :: v ++ ['"']) := .inr (.inr (.inl ⟨v, h1, rfl⟩))
    exact .ofOk <| .next (.variant (koBooleanLit hE hw h (by simp))) <|
      .next (.variant (.left (koPunct hE hw h (by simp [Punct.text])))) <|
      .next (.variant (.left (koPunct hE hw h (by simp [Punct.text])))) <|
      .next (.variant (koFloatLit hE hw h (by simp))) <|
      .next (.variant (koIntegerLit hE hw h)) <| .next (.kwAs (koKw hE hw h (by simp [Kw.text]))) <|
      .here (.variant (okString hE h1 h))

theorem far_constValue {v : ConstValue} (h : RL CStep (constValue v) s r) : Far G.constValue s r := by
  cases v with
  | boolean b => exact .ofOk (.here (.variant (okBooleanLit hE h)))
  | float v =>
    obtain ⟨h1, -⟩ := ko_float' h
    exact .next (.variant h1) <| .here (far_floatLit h).variant
  | integer v =>
    obtain ⟨h0, w, hw, h'⟩ := integer_noFloat h
    obtain ⟨h1, -, -, h4⟩ := ko_number' hw h'
    exact .next (.variant h1) <| .skip (orVariant (h4 h0)) <| .here (far_integerLit h).variant
  | null =>
    have h := rl_tok.1 h
    exact .ofOk <| .next (.variant (koBooleanLit hE (solid_kw .null) h)) <|
      .next (.variant (koFloatLit hE (solid_kw .null) h (by decide))) <|
      .next (.variant (koIntegerLit hE (solid_kw .null) h)) <| .here (okKwAs hE (k := .null) h)

theorem far_default {v : DefaultValue} (h : RL CStep (defaultPart v) s r) : Far G.default s r := by
  obtain ⟨m, h1, h2⟩ := rl_seq.1 h
  exact .bind (okPunct hE (p := .assign) (rl_tok.1 h1)) (far_defaultValue h2)

end Verif.Longest
