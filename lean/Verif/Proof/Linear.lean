import Verif.Proof.Tame

/-!
# Costs that are proportional to what is consumed

A parser may try more terminals than the text that it consumes accounts for only if what follows begins with a character at
which the parsers around it fail.
-/

namespace Verif.Linear
open Nom Spec

/-! ## The text up to the next semicolon -/

def upTo : Inside → Str → Nat
  | .code, ';' :: _ => 1
  | .code, '"' :: s => upTo .string s + 1
  | .code, '/' :: '/' :: s => upTo .lineComment s + 2
  | .code, '/' :: '*' :: s => upTo .blockComment s + 2
  | .code, _ :: s => upTo .code s + 1
  | .string, '"' :: s => upTo .code s + 1
  | .string, _ :: s => upTo .string s + 1
  | .lineComment, '\n' :: s => upTo .code s + 1
  | .lineComment, _ :: s => upTo .lineComment s + 1
  | .blockComment, '*' :: '/' :: s => upTo .code s + 2
  | .blockComment, _ :: s => upTo .blockComment s + 1
  | _, [] => 0

/-- The number of characters up to the first semicolon that is not inside of a string or a comment. -/
def ahead (s : Str) : Nat := upTo .code s

theorem upTo_le (m : Inside) (s : Str) : upTo m s ≤ s.length := by
  fun_induction upTo m s <;> simp <;> omega

theorem ahead_le (s : Str) : ahead s ≤ s.length := upTo_le _ s

def Plain (c : Char) : Prop := c ∉ [';', '"', '/']

theorem ahead_plain {c : Char} (hc : Plain c) (s : Str) : ahead (c :: s) = ahead s + 1 := by
  simp [Plain] at hc
  unfold ahead
  rw [upTo] <;> grind

theorem ahead_plains {w : Str} (hw : ∀ c ∈ w, Plain c) (s : Str) : ahead (w ++ s) = w.length + ahead s := by
  induction w with
  | nil => simp
  | cons c w ih =>
    rw [List.cons_append, ahead_plain (hw c (by simp)), ih fun d hd => hw d (by simp [hd]), List.length_cons]
    omega

theorem upTo_string {v : Str} (hv : '"' ∉ v) (s : Str) : upTo .string (v ++ '"' :: s) = v.length + 1 + ahead s := by
  induction v with
  | nil => simp [upTo, ahead]; omega
  | cons c v ih =>
    simp at hv
    rw [List.cons_append, upTo, ih hv.2, List.length_cons]
    · omega
    · intro h; exact hv.1 h.symm

theorem ahead_string {v : Str} (hv : '"' ∉ v) (s : Str) : ahead ('"' :: v ++ ['"'] ++ s) = v.length + 2 + ahead s := by
  have := upTo_string hv s
  simp [ahead, upTo] at *
  omega

theorem upTo_line {b : Str} (hb : '\n' ∉ b) (s : Str) : upTo .lineComment (b ++ '\n' :: s) = b.length + 1 + ahead s := by
  induction b with
  | nil => simp [upTo, ahead]; omega
  | cons c v ih =>
    simp at hb
    rw [List.cons_append, upTo, ih hb.2, List.length_cons]
    · omega
    · intro h; exact hb.1 h.symm

theorem upTo_block {b : Str} (hb : ¬ c!"*/" <:+: b) (s : Str) :
    upTo .blockComment (b ++ '*' :: '/' :: s) = b.length + 2 + ahead s := by
  induction b with
  | nil => simp [upTo, ahead]; omega
  | cons c v ih =>
    have hv : ¬ c!"*/" <:+: v := fun h => hb (h.trans (List.suffix_cons c v).isInfix)
    rw [List.cons_append, upTo, ih hv, List.length_cons]
    · omega
    · rintro s' rfl h
      cases v with
      | nil => simp at h
      | cons d v =>
        simp at h
        obtain ⟨rfl, -⟩ := h
        exact hb ⟨[], v, rfl⟩

theorem ahead_trivia {t : Str} (ht : Trivia t) (s : Str) : ahead (t ++ s) = t.length + ahead s := by
  induction ht with
  | nil => simp
  | @white c t hc _ ih =>
    rw [List.cons_append, ahead_plain, ih, List.length_cons]
    · omega
    · simp [Plain] at *
      grind
  | @line body t hb _ ih =>
    have := upTo_line hb (t ++ s)
    simp [ahead, upTo] at *
    omega
  | @block body t hb _ ih =>
    have := upTo_block hb (t ++ s)
    simp [ahead, upTo] at *
    omega

theorem strip_suffix (s : Str) : strip s <:+ s := by
  obtain ⟨t, h, -, -⟩ := skips_strip s
  exact ⟨t, h.symm⟩

theorem ahead_strip (s : Str) : (strip s).length + ahead s = s.length + ahead (strip s) := by
  obtain ⟨t, h, ht, -⟩ := skips_strip s
  have h1 : ahead s = t.length + ahead (strip s) := by conv => lhs; rw [h, ahead_trivia ht]
  have h2 : s.length = t.length + (strip s).length := by conv => lhs; rw [h, List.length_append]
  omega

theorem plain_ident {c : Char} (h : isIdentChar c = true) : Plain c := by
  rintro hc
  simp at hc
  rcases hc with rfl | rfl | rfl <;> revert h <;> decide

theorem plain_num {c : Char} (h : NumChar c) : Plain c := by
  rintro hc
  simp at hc
  rcases hc with rfl | rfl | rfl <;> revert h <;> unfold NumChar IsDig <;> decide

theorem ahead_number {w : Str} (h : Number w) (s : Str) : ahead (w ++ s) = w.length + ahead s :=
  ahead_plains (fun c hc => plain_num (h.chars c hc)) s

/-- The leaf is not the semicolon. -/
class Inner {α : Type} (l : Leaf α) : Prop where
  inner : ∀ w v, LeafText l w v → ∀ s, ahead (w ++ s) = w.length + ahead s

instance : Inner .dec := ⟨fun _ _ h s => ahead_number (h.1 ▸ .inl h.2) s⟩
instance : Inner .hex := ⟨fun _ _ h s => ahead_number (h.1 ▸ .inr (.inl h.2)) s⟩
instance : Inner .oct := ⟨fun _ _ h s => ahead_number (h.1 ▸ .inr (.inr (.inl h.2))) s⟩
instance : Inner .float := ⟨fun _ _ h s => ahead_number (h.1 ▸ .inr (.inr (.inr h.2))) s⟩
instance : Inner .string := ⟨fun _ _ h s => by
  rw [h.1, ahead_string h.2]
  simp⟩
instance (k : Kw) : Inner (.kw k) := ⟨fun w _ h s => by
  have h : w = k.text := h
  subst h
  refine ahead_plains (fun c hc => plain_ident ?_) s
  revert hc; revert c
  cases k <;> decide⟩
instance : Inner .ident := ⟨fun w v h s => by
  obtain ⟨h1, h2⟩ := h
  obtain ⟨c, v', rfl, h3, h4⟩ := word_iff.1 h2
  have h5 : ∀ d ∈ c :: v', isIdentChar d = true := by
    intro d hd
    rcases List.mem_cons.1 hd with rfl | hd
    · simp [isIdentChar, Char.isAlphanum, h3]
    · exact h4 d hd
  refine ahead_plains (fun d hd => plain_ident ?_) s
  rcases h1 with rfl | rfl
  · exact h5 d hd
  · rcases List.mem_cons.1 hd with rfl | hd
    · decide
    · exact h5 d hd⟩

theorem inner_punct {p : Punct} (h : p ≠ .semiColon) : Inner (.punct p) := ⟨fun w _ hw s => by
  have hw : w = p.text := hw
  subst hw
  refine ahead_plains (fun c hc => ?_) s
  unfold Plain
  revert hc; revert c
  cases p <;> first | exact absurd rfl h | decide⟩

instance : Inner (.punct .openBracket) := inner_punct (by decide)
instance : Inner (.punct .closeBracket) := inner_punct (by decide)
instance : Inner (.punct .openBrace) := inner_punct (by decide)
instance : Inner (.punct .closeBrace) := inner_punct (by decide)
instance : Inner (.punct .openParen) := inner_punct (by decide)
instance : Inner (.punct .closeParen) := inner_punct (by decide)
instance : Inner (.punct .lessThan) := inner_punct (by decide)
instance : Inner (.punct .greaterThan) := inner_punct (by decide)
instance : Inner (.punct .comma) := inner_punct (by decide)
instance : Inner (.punct .ellipsis) := inner_punct (by decide)
instance : Inner (.punct .colon) := inner_punct (by decide)
instance : Inner (.punct .assign) := inner_punct (by decide)
instance : Inner (.punct .qMark) := inner_punct (by decide)
instance : Inner (.punct .asterisk) := inner_punct (by decide)

theorem leaf_suffix {α : Type} {l : Leaf α} {s r : Str} {v : α} (h : charLeaf α l s = .ok r v) : r <:+ s := by
  obtain ⟨w, e, h1, -, -, rfl⟩ := charLeaf_ok_iff.1 h
  exact ((strip_suffix e).trans ⟨w, h1.symm⟩).trans (strip_suffix s)

theorem leaf_lt {α : Type} {l : Leaf α} {s r : Str} {v : α} (h : charLeaf α l s = .ok r v) : r.length < s.length := by
  have := charLeaf_fine α l s
  rw [h] at this
  exact this.2 rfl

theorem leaf_ahead {α : Type} {l : Leaf α} [hl : Inner l] {s r : Str} {v : α} (h : charLeaf α l s = .ok r v) :
    r.length + ahead s = s.length + ahead r := by
  obtain ⟨w, e, h1, h2, -, rfl⟩ := charLeaf_ok_iff.1 h
  have h3 := ahead_strip s
  have h4 := ahead_strip e
  rw [h1, hl.inner _ _ h2] at h3
  simp only [List.length_append] at h3
  omega

theorem semi_ahead {s r : Str} {v : Unit} (h : charLeaf _ (.punct .semiColon) s = .ok r v) :
    r.length + ahead s ≤ s.length := by
  obtain ⟨w, e, h1, h2, -, rfl⟩ := charLeaf_ok_iff.1 h
  have h2 : w = c!";" := h2
  subst h2
  have h3 := ahead_strip s
  have h4 := (strip_suffix e).length_le
  rw [h1, show ahead (c!";" ++ e) = 1 from rfl] at h3
  simp at h3
  omega

/-! ## The first character -/

/-- The text begins with the character, apart from white space and comments. -/
def At (c : Char) (s : Str) : Prop := ∃ t, strip s = c :: t

theorem At.det {c d : Char} {s : Str} (h : At c s) (h' : At d s) : c = d := by
  obtain ⟨t, h⟩ := h
  obtain ⟨t', h'⟩ := h'
  rw [h] at h'
  exact (List.cons.inj h').1

/-- No text of the leaf begins with the character. -/
class Refuse {α : Type} (c : Char) (l : Leaf α) : Prop where
  refuse : ∀ w v, LeafText l w v → w ≠ [] ∧ w.head? ≠ some c

theorem Refuse.not_ok {α : Type} {c : Char} {l : Leaf α} [h : Refuse c l] {s r : Str} {v : α} (hs : At c s) :
    charLeaf α l s ≠ .ok r v := by
  intro e
  obtain ⟨w, e, h1, h2, -, rfl⟩ := charLeaf_ok_iff.1 e
  obtain ⟨t, ht⟩ := hs
  obtain ⟨h3, h4⟩ := h.refuse _ _ h2
  cases w with
  | nil => exact h3 rfl
  | cons d w =>
    rw [ht] at h1
    exact h4 (by rw [(List.cons.inj h1).1]; rfl)

/-- Characters that begin a symbol and nothing else that matters here. -/
class Sign (c : Char) : Prop where
  sign : c ∈ ['(', ')', '<', '>', '[', ']', '{', '}', '=', ',', ';', ':', '?', '.']

instance : Sign '(' := ⟨by decide⟩
instance : Sign ')' := ⟨by decide⟩
instance : Sign '<' := ⟨by decide⟩
instance : Sign '>' := ⟨by decide⟩
instance : Sign '[' := ⟨by decide⟩
instance : Sign ']' := ⟨by decide⟩
instance : Sign '{' := ⟨by decide⟩
instance : Sign '}' := ⟨by decide⟩
instance : Sign '=' := ⟨by decide⟩
instance : Sign ',' := ⟨by decide⟩
instance : Sign ';' := ⟨by decide⟩
instance : Sign ':' := ⟨by decide⟩
instance : Sign '?' := ⟨by decide⟩
instance : Sign '.' := ⟨by decide⟩

instance {c : Char} [h : Sign c] {k : Kw} : Refuse c (.kw k) := ⟨fun w _ hw => by
  have hw : w = k.text := hw
  subst hw
  have := h.sign
  refine ⟨by cases k <;> decide, fun e => ?_⟩
  have h2 : ∀ d ∈ ['(', ')', '<', '>', '[', ']', '{', '}', '=', ',', ';', ':', '?', '.'], k.text.head? ≠ some d := by
    cases k <;> decide
  exact h2 c this e⟩

instance {c : Char} [h : Sign c] : Refuse c .ident := ⟨fun w v hw => by
  obtain ⟨h1, h2⟩ := hw
  obtain ⟨d, v', rfl, h3, h4⟩ := word_iff.1 h2
  have h5 : ∀ d ∈ ['(', ')', '<', '>', '[', ']', '{', '}', '=', ',', ';', ':', '?', '.'], ¬ (d.isAlpha = true ∨ d = '_') := by
    decide
  rcases h1 with rfl | rfl
  · refine ⟨by simp, fun e => h5 c h.sign (.inl ?_)⟩
    simp at e
    exact e ▸ h3
  · refine ⟨by simp, fun e => h5 c h.sign (.inr ?_)⟩
    simp at e
    exact e.symm⟩

instance {c : Char} [h : Sign c] : Refuse c .string := ⟨fun w v hw => by
  obtain ⟨rfl, -⟩ := hw
  refine ⟨by simp, fun e => ?_⟩
  simp at e
  have := h.sign
  rw [← e] at this
  revert this
  decide⟩

theorem refuse_punct {c : Char} {p : Punct} (h : p.text.head? ≠ some c) : Refuse c (.punct p) := ⟨fun w _ hw => by
  have hw : w = p.text := hw
  subst hw
  exact ⟨by cases p <;> decide, h⟩⟩

/-! ## Parsers that fail at once -/

variable {α β : Type}

/-- On texts that begin with the character, the parser fails after trying at most `k` terminals. -/
class Blunt (c : Char) (g : G α) (k : outParam Nat) : Prop where
  blunt : ∀ s n x, At c s → Runs charLeaf g s n x → n ≤ k ∧ ∃ e, x = .err e

/-- On texts that begin with the character, the parser consumes nothing, after trying at most `k` terminals. -/
class Skips (c : Char) (g : G α) (k : outParam Nat) : Prop where
  skips : ∀ s n x, At c s → Runs charLeaf g s n x → n ≤ k ∧ ((∃ e, x = .err e) ∨ ∃ v, x = .ok s v)

variable {c : Char}

instance {l : Leaf α} [h : Refuse c l] : Blunt c (.leaf l) 1 := ⟨fun s n x hs hr => by
  obtain ⟨rfl, rfl⟩ := Runs.inv hr
  refine ⟨Nat.le_refl _, ?_⟩
  cases e : charLeaf α l s with
  | ok r v => exact absurd e (h.not_ok hs)
  | err e' => exact ⟨e', rfl⟩
  | diverge =>
    have := charLeaf_fine α l s
    rw [e] at this
    exact this.elim⟩

instance {p : Punct} [h : Refuse c (.punct p)] : Blunt c (G.punct p) 1 := inferInstanceAs (Blunt c (.leaf (.punct p)) 1)
instance {k : Kw} [h : Refuse c (.kw k)] : Blunt c (G.kw k) 1 := inferInstanceAs (Blunt c (.leaf (.kw k)) 1)
instance [h : Refuse c .ident] : Blunt c G.ident 1 := inferInstanceAs (Blunt c (.leaf .ident) 1)

theorem blunt_bind {g : G α} {f : α → G β} {k : Nat} (hg : Blunt c g k) : Blunt c (.bind g f) k := ⟨fun s n x hs hr => by
  have := Runs.inv hr
  simp only [Runs.Inv] at this
  rcases this with ⟨r, a, d, e, h1, h2, rfl⟩ | ⟨e, h1, rfl⟩
  · obtain ⟨-, e, h⟩ := hg.blunt _ _ _ hs h1
    cases h
  · exact ⟨(hg.blunt _ _ _ hs h1).1, e, rfl⟩⟩

theorem blunt_skips {g : G α} {f : α → G β} {k j : Nat} (hg : Skips c g k) (hf : ∀ a, Blunt c (f a) j) :
    Blunt c (.bind g f) (k + j) := ⟨fun s n x hs hr => by
  have := Runs.inv hr
  simp only [Runs.Inv] at this
  rcases this with ⟨r, a, d, e, h1, h2, rfl⟩ | ⟨e, h1, rfl⟩
  · obtain ⟨h3, ⟨e', h⟩ | ⟨v, h⟩⟩ := hg.skips _ _ _ hs h1
    · cases h
    · cases h
      obtain ⟨h4, h5⟩ := (hf a).blunt _ _ _ hs h2
      exact ⟨by omega, h5⟩
  · exact ⟨Nat.le_trans (hg.skips _ _ _ hs h1).1 (by omega), e, rfl⟩⟩

theorem skips_bind {g : G α} {f : α → G β} {k j : Nat} (hg : Skips c g k) (hf : ∀ a, Skips c (f a) j) :
    Skips c (.bind g f) (k + j) := ⟨fun s n x hs hr => by
  have := Runs.inv hr
  simp only [Runs.Inv] at this
  rcases this with ⟨r, a, d, e, h1, h2, rfl⟩ | ⟨e, h1, rfl⟩
  · obtain ⟨h3, ⟨e', h⟩ | ⟨v, h⟩⟩ := hg.skips _ _ _ hs h1
    · cases h
    · cases h
      obtain ⟨h4, h5⟩ := (hf a).skips _ _ _ hs h2
      exact ⟨by omega, h5⟩
  · exact ⟨Nat.le_trans (hg.skips _ _ _ hs h1).1 (by omega), .inl ⟨e, rfl⟩⟩⟩

instance {a : α} : Skips c (pure a : G α) 0 := ⟨fun s n x hs hr => by
  obtain ⟨rfl, rfl⟩ := Runs.inv hr
  exact ⟨Nat.le_refl _, .inr ⟨a, rfl⟩⟩⟩

instance {g : G α} {f : α → G β} {k : Nat} [hg : Blunt c g k] : Blunt c (g >>= f) k := blunt_bind hg
instance {g : G α} {f : α → G β} {k j : Nat} [hg : Skips c g k] [hf : ∀ a, Blunt c (f a) j] : Blunt c (g >>= f) (k + j) :=
  blunt_skips hg hf
instance {g : G α} {f : α → G β} {k j : Nat} [hg : Skips c g k] [hf : ∀ a, Skips c (f a) j] : Skips c (g >>= f) (k + j) :=
  skips_bind hg hf

instance {g : G α} {k : Nat} [hg : Blunt c g k] : Skips c (.opt g) k := ⟨fun s n x hs hr => by
  have := Runs.inv hr
  simp only [Runs.Inv] at this
  rcases this with ⟨r, a, h1, rfl⟩ | ⟨p, j, h1, rfl⟩ | ⟨e, -, h1, rfl⟩
  · obtain ⟨-, e, h⟩ := hg.blunt _ _ _ hs h1
    cases h
  · exact ⟨(hg.blunt _ _ _ hs h1).1, .inr ⟨_, rfl⟩⟩
  · exact ⟨(hg.blunt _ _ _ hs h1).1, .inl ⟨_, rfl⟩⟩⟩

theorem blunt_orElse {g h : G α} {k j : Nat} (hg : Blunt c g k) (hh : Blunt c h j) : Blunt c (.orElse g h) (k + j) :=
  ⟨fun s n x hs hr => by
  have := Runs.inv hr
  simp only [Runs.Inv] at this
  rcases this with ⟨r, a, h1, rfl⟩ | ⟨p, j, d, e, h1, h2, rfl⟩ | ⟨e, -, h1, rfl⟩
  · obtain ⟨-, e, h⟩ := hg.blunt _ _ _ hs h1
    cases h
  · have := (hg.blunt _ _ _ hs h1).1
    obtain ⟨h3, h4⟩ := hh.blunt _ _ _ hs h2
    exact ⟨by omega, h4⟩
  · exact ⟨Nat.le_trans (hg.blunt _ _ _ hs h1).1 (by omega), _, rfl⟩⟩

instance : Blunt c (G.alts ([] : List (G α))) 0 := ⟨fun s n x hs hr => by
  obtain ⟨rfl, rfl⟩ := Runs.inv hr
  exact ⟨Nat.le_refl _, _, rfl⟩⟩
instance {g : G α} {gs : List (G α)} {k j : Nat} [hg : Blunt c g k] [hh : Blunt c (G.alts gs) j] :
    Blunt c (G.alts (g :: gs)) (k + j) := blunt_orElse hg hh

instance {f : α → β} {g : G α} {k : Nat} [hg : Blunt c g k] : Blunt c (G.variant f g) k := blunt_bind hg
instance {x : Kw} {a : α} [h : Refuse c (.kw x)] : Blunt c (G.kwAs x a) 1 := blunt_bind (inferInstanceAs (Blunt c (G.kw x) 1))
instance {x : Kw} [h : Refuse c (.kw x)] : Skips c (G.optKw x) 1 := by unfold G.optKw; infer_instance
instance {p : Punct} [h : Refuse c (.punct p)] : Skips c (G.optPunct p) 1 := by unfold G.optPunct; infer_instance
instance {g : G α} {f : α → Bool → β} {k : Nat} [hg : Blunt c g k] : Blunt c (G.mayBeNull f g) k := blunt_bind hg
instance {g : G α} [h : Refuse c (.punct .openParen)] : Blunt c (G.parenthesized g) 1 :=
  blunt_bind (inferInstanceAs (Blunt c (G.punct .openParen) 1))
instance {g : G α} [h : Refuse c (.punct .openBracket)] : Blunt c (G.bracketed g) 1 :=
  blunt_bind (inferInstanceAs (Blunt c (G.punct .openBracket) 1))
instance {g : G α} [h : Refuse c (.punct .openBrace)] : Blunt c (G.braced g) 1 :=
  blunt_bind (inferInstanceAs (Blunt c (G.punct .openBrace) 1))
instance {g : G α} [h : Refuse c (.punct .lessThan)] : Blunt c (G.generics g) 1 :=
  blunt_bind (inferInstanceAs (Blunt c (G.punct .lessThan) 1))

/-! ## Costs -/

/-- At most `k` terminals are tried for each character up to what `A` says; and for each character that is consumed, except if
what follows begins with a character of `X`. -/
structure Bd (A : Str → Nat) (k : Nat) (X : List Char) (s : Str) (c : Nat) (x : Res Char α) : Prop where
  total : c ≤ k * (A s + 1)
  ok : ∀ r v, x = .ok r v → r.length + A s = s.length + A r ∧ r <:+ s ∧
    (c ≤ k * (s.length - r.length + 1) ∨ ∃ ch ∈ X, At ch r)

/-- The same for recursive calls inside of fewer than `d` brackets. -/
def Calls (A : Str → Nat) (d a : Nat) : Prop :=
  ∀ (α : Type) (N : NT α) (s : Str) (c : Nat) (x : Res Char α), nest s < d → Runs charLeaf (.call N) s c x →
    Bd A a ['<'] s c x ∧ Bd ahead a ['<'] s c x

theorem Calls.ahead {A : Str → Nat} {d a : Nat} (h : Calls A d a) : Calls ahead d a :=
  fun α N s c x hd hr => ⟨(h α N s c x hd hr).2, (h α N s c x hd hr).2⟩

/-- The costs inside of `l` brackets. -/
class Lin (A : Str → Nat) (l : Nat) (g : G α) (X : outParam (List Char)) (k : outParam Nat) : Prop where
  lin : ∀ d a, 1 ≤ a → Calls A d a → ∀ s, nest s + l ≤ d → ∀ c x, Runs charLeaf g s c x → Bd A (k * a) X s c x

/-- The measures that are used. -/
class Leafy (A : Str → Nat) {α : Type} (l : Leaf α) : Prop where
  leafy : ∀ s r v, charLeaf α l s = .ok r v → r.length + A s = s.length + A r

instance {l : Leaf α} [h : Inner l] : Leafy ahead l := ⟨fun _ _ _ h' => leaf_ahead h'⟩
instance {l : Leaf α} : Leafy List.length l := ⟨fun _ _ _ h' => Nat.add_comm _ _⟩

theorem Bd.mono {A : Str → Nat} {k k' : Nat} {X : List Char} {s : Str} {c : Nat} {x : Res Char α} (h : Bd A k X s c x)
    (hk : k ≤ k') : Bd A k' X s c x :=
  ⟨Nat.le_trans h.total (Nat.mul_le_mul_right _ hk), fun r v e => by
    obtain ⟨h1, h2, h3⟩ := h.ok r v e
    exact ⟨h1, h2, h3.imp_left fun h => Nat.le_trans h (Nat.mul_le_mul_right _ hk)⟩⟩

variable {A : Str → Nat} {l : Nat}

instance {a : α} : Lin A l (pure a : G α) [] 0 := ⟨fun d b hb hc s hs c x hr => by
  obtain ⟨rfl, rfl⟩ := Runs.inv hr
  refine ⟨Nat.zero_le _, fun r v e => ?_⟩
  cases e
  exact ⟨rfl, List.suffix_refl _, .inl (Nat.zero_le _)⟩⟩

theorem lin_leaf {x : Leaf α} [h : Leafy A x] : Lin A l (.leaf x) [] 1 := ⟨fun d a ha hc s hs c y hr => by
  obtain ⟨rfl, rfl⟩ := Runs.inv hr
  have h1 : ∀ m, 1 ≤ 1 * a * (m + 1) := fun m => Nat.mul_pos (by omega) (by omega)
  exact ⟨h1 _, fun r v e => ⟨h.leafy _ _ _ e, leaf_suffix e, .inl (h1 _)⟩⟩⟩

instance {x : Leaf α} [h : Leafy A x] : Lin A l (.leaf x) [] 1 := lin_leaf
instance {p : Punct} [h : Leafy A (.punct p)] : Lin A l (G.punct p) [] 1 := lin_leaf
instance {k : Kw} [h : Leafy A (.kw k)] : Lin A l (G.kw k) [] 1 := lin_leaf
instance [h : Leafy A .ident] : Lin A l G.ident [] 1 := lin_leaf

/-- The parser fails at each of the characters. -/
class Blunts (X : List Char) (g : G α) : Prop where
  blunts : ∀ c ∈ X, ∃ k, Blunt c g k

instance {g : G α} : Blunts [] g := ⟨fun _ h => nomatch h⟩
instance {X : List Char} {g : G α} {k : Nat} [h : Blunt c g k] [h' : Blunts X g] : Blunts (c :: X) g :=
  ⟨fun d hd => by
    rcases List.mem_cons.1 hd with rfl | hd
    · exact ⟨k, h⟩
    · exact h'.blunts d hd⟩

theorem body_tame (α : Type) (N : NT α) : ∃ w k, Tame 0 (G.body N) 0 w k := ⟨_, _, tame_body α N⟩

theorem arith {k k' a m n p : Nat} (h : p ≤ n) (h' : n ≤ m) :
    k * a * (m - n + 1) + k' * a * (n - p + 1) ≤ (k + k') * a * (m - p + 1) := by
  rw [Nat.add_mul, Nat.add_mul]
  exact Nat.add_le_add (Nat.mul_le_mul_left _ (by omega)) (Nat.mul_le_mul_left _ (by omega))

theorem lin_bind {g : G α} {f : α → G β} {m w : Nat} {st : Bool} {X Y : List Char} {k k' : Nat} (hs : Guarded true g st)
    (ht : Tame l g m w 6) (hg : Lin A l g X k) (hf : ∀ a, Lin A m (f a) Y k') (hb : ∀ a, Blunts X (f a)) :
    Lin A l (.bind g f) Y (k + k') := ⟨fun d a ha hc s hd c x hr => by
  have := Runs.inv hr
  simp only [Runs.Inv] at this
  rcases this with ⟨r, v, i, j, h1, h2, rfl⟩ | ⟨e, h1, rfl⟩
  · have h3 := ht.effect' body_tame hs h1
    obtain ⟨h4, h5⟩ := hg.lin d a ha hc s hd _ _ h1
    obtain ⟨h6, h7, h8⟩ := h5 _ _ rfl
    obtain ⟨h9, h10⟩ := (hf v).lin d a ha hc r (by omega) _ _ h2
    have h11 := h7.length_le
    have h12 : k' * a * (A r + 1) ≤ k' * a * (A s + 1) := Nat.mul_le_mul_left _ (by omega)
    refine ⟨?_, fun q u e => ?_⟩
    · rw [Nat.add_mul, Nat.add_mul]
      omega
    · obtain ⟨h13, h14, h15⟩ := h10 _ _ e
      refine ⟨by omega, h14.trans h7, ?_⟩
      rcases h8 with h8 | ⟨ch, h16, h17⟩
      · refine h15.imp_left fun h15 => ?_
        have := arith (k := k) (k' := k') (a := a) h14.length_le h11
        omega
      · obtain ⟨_, h18⟩ := (hb v).blunts ch h16
        obtain ⟨-, _, h19⟩ := h18.blunt _ _ _ h17 h2
        rw [h19] at e
        cases e
  · obtain ⟨h4, h5⟩ := hg.lin d a ha hc s hd _ _ h1
    refine ⟨Nat.le_trans h4 (Nat.mul_le_mul_right _ (Nat.mul_le_mul_right _ (by omega))), fun _ _ e => by cases e⟩⟩

theorem lin_pure {g : G α} {f : α → β} {X : List Char} {k : Nat} (hg : Lin A l g X k) :
    Lin A l (.bind g fun a => .ret (f a)) X k := ⟨fun d a ha hc s hd c x hr => by
  have := Runs.inv hr
  simp only [Runs.Inv] at this
  rcases this with ⟨r, v, i, j, h1, h2, rfl⟩ | ⟨e, h1, rfl⟩
  · obtain ⟨rfl, rfl⟩ := Runs.inv h2
    obtain ⟨h4, h5⟩ := hg.lin d a ha hc s hd _ _ h1
    refine ⟨h4, fun q u e => ?_⟩
    cases e
    exact h5 _ _ rfl
  · obtain ⟨h4, h5⟩ := hg.lin d a ha hc s hd _ _ h1
    exact ⟨h4, fun _ _ e => by cases e⟩⟩

instance (priority := high) {g : G α} {f : α → β} {X : List Char} {k : Nat} [hg : Lin A l g X k] :
    Lin A l (g >>= fun a => pure (f a)) X k := lin_pure hg
instance {g : G α} {f : α → G β} {m w : Nat} {st : Bool} {X Y : List Char} {k k' : Nat} [hs : Guarded true g st]
    [ht : Tame l g m w 6] [hg : Lin A l g X k] [hf : ∀ a, Lin A m (f a) Y k'] [hb : ∀ a, Blunts X (f a)] :
    Lin A l (g >>= f) Y (k + k') := lin_bind hs ht hg hf hb
instance {f : α → β} {g : G α} {X : List Char} {k : Nat} [hg : Lin A l g X k] : Lin A l (G.variant f g) X k := lin_pure hg
instance {x : Kw} {a : α} [Leafy A (.kw x)] : Lin A l (G.kwAs x a) [] 1 := lin_pure lin_leaf

/-- The number of terminals tried is bounded. -/
class Brief (g : G α) (k : outParam Nat) : Prop where
  brief : ∀ s n x, Runs charLeaf g s n x → n ≤ k

instance {a : α} : Brief (pure a : G α) 0 := ⟨fun s n x hr => by
  obtain ⟨rfl, rfl⟩ := Runs.inv hr
  exact Nat.le_refl _⟩
theorem brief_leaf {x : Leaf α} : Brief (.leaf x) 1 := ⟨fun s n y hr => by
  obtain ⟨rfl, rfl⟩ := Runs.inv hr
  exact Nat.le_refl _⟩
instance {x : Leaf α} : Brief (.leaf x) 1 := brief_leaf
instance {p : Punct} : Brief (G.punct p) 1 := brief_leaf
instance {k : Kw} : Brief (G.kw k) 1 := brief_leaf
instance : Brief G.ident 1 := brief_leaf
theorem brief_bind {g : G α} {f : α → G β} {k j : Nat} (hg : Brief g k) (hf : ∀ a, Brief (f a) j) : Brief (.bind g f) (k + j) :=
  ⟨fun s n x hr => by
  have := Runs.inv hr
  simp only [Runs.Inv] at this
  rcases this with ⟨r, v, i, j, h1, h2, rfl⟩ | ⟨e, h1, rfl⟩
  · have := hg.brief _ _ _ h1
    have := (hf v).brief _ _ _ h2
    omega
  · have := hg.brief _ _ _ h1
    omega⟩
theorem brief_opt {g : G α} {k : Nat} (hg : Brief g k) : Brief (.opt g) k := ⟨fun s n x hr => by
  have := Runs.inv hr
  simp only [Runs.Inv] at this
  rcases this with ⟨r, a, h1, rfl⟩ | ⟨p, j, h1, rfl⟩ | ⟨e, -, h1, rfl⟩ <;> exact hg.brief _ _ _ h1⟩
theorem brief_orElse {g h : G α} {k j : Nat} (hg : Brief g k) (hh : Brief h j) : Brief (.orElse g h) (k + j) := ⟨fun s n x hr => by
  have := Runs.inv hr
  simp only [Runs.Inv] at this
  rcases this with ⟨r, a, h1, rfl⟩ | ⟨p, j, d, e, h1, h2, rfl⟩ | ⟨e, -, h1, rfl⟩
  · have := hg.brief _ _ _ h1; omega
  · have := hg.brief _ _ _ h1; have := hh.brief _ _ _ h2; omega
  · have := hg.brief _ _ _ h1; omega⟩
instance {g : G α} {f : α → G β} {k j : Nat} [hg : Brief g k] [hf : ∀ a, Brief (f a) j] : Brief (g >>= f) (k + j) :=
  brief_bind hg hf
instance {g : G α} {k : Nat} [hg : Brief g k] : Brief (.opt g) k := brief_opt hg
instance : Brief (G.alts ([] : List (G α))) 0 := ⟨fun s n x hr => by
  obtain ⟨rfl, rfl⟩ := Runs.inv hr
  exact Nat.le_refl _⟩
instance {g : G α} {gs : List (G α)} {k j : Nat} [hg : Brief g k] [hh : Brief (G.alts gs) j] :
    Brief (G.alts (g :: gs)) (k + j) := brief_orElse hg hh
instance {f : α → β} {g : G α} {k : Nat} [hg : Brief g k] : Brief (G.variant f g) k := by unfold G.variant; infer_instance
instance {x : Kw} {a : α} : Brief (G.kwAs x a) 1 := by unfold G.kwAs; infer_instance
instance {x : Kw} : Brief (G.optKw x) 1 := by unfold G.optKw; infer_instance
instance {p : Punct} : Brief (G.optPunct p) 1 := by unfold G.optPunct; infer_instance
instance {f : α → Bool → β} {g : G α} {k : Nat} [hg : Brief g k] : Brief (G.mayBeNull f g) (k + 1) := by unfold G.mayBeNull; infer_instance
instance {b : Bool} {g : G α} {k : Nat} [hg : Brief g k] : Brief (G.cond b g) k := by
  cases b
  · exact ⟨fun s n x hr => by
      obtain ⟨rfl, rfl⟩ := Runs.inv hr
      exact Nat.zero_le _⟩
  · exact inferInstanceAs (Brief (G.variant some g) k)

/-- What the measure does along a parser. -/
class Meas (A : Str → Nat) (g : G α) : Prop where
  meas : ∀ s n r v, Runs charLeaf g s n (.ok r v) → r.length + A s = s.length + A r

instance {a : α} : Meas A (pure a : G α) := ⟨fun s n r v hr => by
  obtain ⟨rfl, e⟩ := Runs.inv hr
  cases e
  rfl⟩
theorem meas_leaf {x : Leaf α} [h : Leafy A x] : Meas A (.leaf x) := ⟨fun s n r v hr => by
  obtain ⟨rfl, e⟩ := Runs.inv hr
  exact h.leafy _ _ _ e.symm⟩
instance {x : Leaf α} [h : Leafy A x] : Meas A (.leaf x) := meas_leaf
instance {p : Punct} [h : Leafy A (.punct p)] : Meas A (G.punct p) := meas_leaf
instance {k : Kw} [h : Leafy A (.kw k)] : Meas A (G.kw k) := meas_leaf
instance [h : Leafy A .ident] : Meas A G.ident := meas_leaf
theorem meas_bind {g : G α} {f : α → G β} (hg : Meas A g) (hf : ∀ a, Meas A (f a)) : Meas A (.bind g f) := ⟨fun s n r v hr => by
  have := Runs.inv hr
  simp only [Runs.Inv] at this
  rcases this with ⟨r, v, i, j, h1, h2, rfl⟩ | ⟨e, h1, h2⟩
  · have := hg.meas _ _ _ _ h1
    have := (hf v).meas _ _ _ _ h2
    omega
  · cases h2⟩
theorem meas_opt {g : G α} (hg : Meas A g) : Meas A (.opt g) := ⟨fun s n r v hr => by
  have := Runs.inv hr
  simp only [Runs.Inv] at this
  rcases this with ⟨r, a, h1, h2⟩ | ⟨p, j, h1, h2⟩ | ⟨e, -, h1, h2⟩
  · cases h2; exact hg.meas _ _ _ _ h1
  · cases h2; rfl
  · cases h2⟩
theorem meas_orElse {g h : G α} (hg : Meas A g) (hh : Meas A h) : Meas A (.orElse g h) := ⟨fun s n r v hr => by
  have := Runs.inv hr
  simp only [Runs.Inv] at this
  rcases this with ⟨r, a, h1, h2⟩ | ⟨p, j, d, e, h1, h2, rfl⟩ | ⟨e, -, h1, h2⟩
  · cases h2; exact hg.meas _ _ _ _ h1
  · exact hh.meas _ _ _ _ h2
  · cases h2⟩
instance {g : G α} {f : α → G β} [hg : Meas A g] [hf : ∀ a, Meas A (f a)] : Meas A (g >>= f) := meas_bind hg hf
instance {g : G α} [hg : Meas A g] : Meas A (.opt g) := meas_opt hg
instance : Meas A (G.alts ([] : List (G α))) := ⟨fun s n r v hr => by
  obtain ⟨rfl, e⟩ := Runs.inv hr
  cases e⟩
instance {g : G α} {gs : List (G α)} [hg : Meas A g] [hh : Meas A (G.alts gs)] : Meas A (G.alts (g :: gs)) := meas_orElse hg hh
instance {f : α → β} {g : G α} [hg : Meas A g] : Meas A (G.variant f g) := by unfold G.variant; infer_instance
instance {x : Kw} {a : α} [h : Leafy A (.kw x)] : Meas A (G.kwAs x a) := by unfold G.kwAs; infer_instance
instance {x : Kw} [h : Leafy A (.kw x)] : Meas A (G.optKw x) := by unfold G.optKw; infer_instance
instance {p : Punct} [h : Leafy A (.punct p)] : Meas A (G.optPunct p) := by unfold G.optPunct; infer_instance
instance {f : α → Bool → β} {g : G α} [hg : Meas A g] [h : Leafy A (.punct .qMark)] : Meas A (G.mayBeNull f g) := by unfold G.mayBeNull; infer_instance
instance {b : Bool} {g : G α} [hg : Meas A g] : Meas A (G.cond b g) := by
  cases b
  · exact inferInstanceAs (Meas A (pure _))
  · exact inferInstanceAs (Meas A (G.variant some g))

theorem runs_suffix {g : G α} {st : Bool} (hs : Guarded true g st) {s r : Str} {n : Nat} {v : α}
    (h : Runs charLeaf g s n (.ok r v)) : r <:+ s := (runs_fine hs h).1

theorem lin_brief {g : G α} {st : Bool} {k : Nat} (hs : Guarded true g st) (hg : Brief g k) (hm : Meas A g) : Lin A l g [] k :=
  ⟨fun d a ha hc s hd c x hr => by
    have h1 := hg.brief _ _ _ hr
    have h2 : ∀ n, c ≤ k * a * (n + 1) := fun n =>
      Nat.le_trans h1 (Nat.le_trans (Nat.le_mul_of_pos_right _ ha) (Nat.le_mul_of_pos_right _ (by omega)))
    refine ⟨h2 _, fun r v e => ?_⟩
    subst e
    exact ⟨hm.meas _ _ _ _ hr, runs_suffix hs hr, .inl (h2 _)⟩⟩

end Verif.Linear
