import Verif.Proof.Regex
import Verif.Model.Parse

/-! # The leaf parsers -/

namespace Verif
open Nom Spec

/-- The parser inside of `ws!(..)`, for each leaf. -/
def core : ∀ {α}, Leaf α → P Char α
  | _, .punct p => Nom.map (fun _ => ()) (tag p.text)
  | _, .kw k => Nom.map (fun _ => ()) (identTag k.text)
  | _, .ident => seq (Nom.opt (Nom.char '_')) fun _ =>
      seq (recognize (seq (takeWhile1 Char.isAlpha) fun _ =>
        seq (takeWhile isIdentChar) fun _ => Nom.ret ())) fun id => Nom.ret id
  | _, .dec => recognize (seq (Nom.opt (Nom.char '-')) fun _ =>
      seq (oneOf c!"123456789") fun _ =>
      seq (takeWhile Char.isDigit) fun _ => Nom.ret ())
  | _, .hex => recognize (seq (Nom.opt (Nom.char '-')) fun _ =>
      seq (Nom.char '0') fun _ =>
      seq (alt [Nom.char 'x', Nom.char 'X']) fun _ =>
      seq (takeWhile isHexDigit) fun _ => Nom.ret ())
  | _, .oct => recognize (seq (Nom.opt (Nom.char '-')) fun _ =>
      seq (Nom.char '0') fun _ =>
      seq (takeWhile isOctDigit) fun _ => Nom.ret ())
  | _, .float => recognize (seq (Nom.opt (Nom.char '-')) fun _ =>
      seq (alt [
        seq (alt [floatIntDot, floatDotInt]) fun _ =>
          seq (Nom.opt floatExp) fun _ => Nom.ret (),
        seq (takeWhile1 Char.isDigit) fun _ =>
          seq floatExp fun _ => Nom.ret ()]) fun _ => Nom.ret ())
  | _, .string => seq (Nom.char '"') fun _ =>
      seq (takeWhile fun c => c != '"') fun s =>
      seq (Nom.char '"') fun _ => Nom.ret s

/-- `e` does not begin with a character of a name. -/
def NameEnd (e : Str) : Prop := ∀ c e', e = c :: e' → isIdentChar c = false

/-- No match of `re` at the beginning of `w ++ e` is longer than `w`. -/
def Longest (re : Regex) (w e : Str) : Prop :=
  ∀ w', w' <+: w ++ e → re.Matches w' → w'.length ≤ w.length

/-- `w` is a text of the leaf `l`, with value `a`. -/
def LeafText : ∀ {α}, Leaf α → Str → α → Prop
  | _, .punct p, w, _ => w = p.text
  | _, .kw k, w, _ => w = k.text
  | _, .ident, w, v => (w = v ∨ w = '_' :: v) ∧ Regex.word.Matches v
  | _, .dec, w, v => w = v ∧ Regex.dec.Matches v
  | _, .hex, w, v => w = v ∧ Regex.hex.Matches v
  | _, .oct, w, v => w = v ∧ Regex.oct.Matches v
  | _, .float, w, v => w = v ∧ Regex.float.Matches v
  | _, .string, w, v => w = '"' :: v ++ ['"'] ∧ '"' ∉ v

/-- What may follow the text `w` of the leaf `l`. -/
def LeafEnd : ∀ {α}, Leaf α → Str → Str → Prop
  | _, .punct _, _, _ => True
  | _, .kw _, _, e => NameEnd e
  | _, .ident, _, e => NameEnd e
  | _, .dec, w, e => Longest Regex.dec w e
  | _, .hex, w, e => Longest Regex.hex w e
  | _, .oct, w, e => Longest Regex.oct w e
  | _, .float, w, e => Longest Regex.float w e
  | _, .string, _, _ => True

theorem isIdentByte_eq : isIdentByte = isIdentChar := rfl

theorem charLeaf_eq {α : Type} (l : Leaf α) (s : Str) :
    charLeaf α l s = match core l (strip s) with
      | .ok r a => .ok (strip r) a
      | .err e => .err e
      | .diverge => .diverge := by
  cases l with
  | punct p =>
    simp only [charLeaf, punctP, core, Nom.map, Nom.seq, ws_eq, Nom.ret]
    cases tag p.text (strip s) <;> rfl
  | kw p =>
    simp only [charLeaf, kwP, core, Nom.map, Nom.seq, ws_eq, Nom.ret]
    cases identTag p.text (strip s) <;> rfl
  | _ => exact ws_eq _ _

/-! ## Success and failure of `core` -/

/-- `core l` either finds a text of `l` or fails with a recoverable error, in which case
there is none. -/
def CoreSpec {α : Type} (l : Leaf α) (b : Str) : Prop :=
  (∃ w e v, core l b = .ok e v ∧ b = w ++ e ∧ LeafText l w v ∧ LeafEnd l w e) ∨
  (∃ q k, core l b = .err (.error q k) ∧ q <:+ b ∧
    ∀ w e v, b = w ++ e → LeafText l w v → ¬ LeafEnd l w e)

theorem coreSpec_rec {p : P Char Unit} {re : Regex} (h : Rec p re) (b : Str) :
    (∃ w e, recognize p b = .ok e w ∧ b = w ++ e ∧ re.Matches w ∧ Longest re w e) ∨
    (∃ q k, recognize p b = .err (.error q k) ∧ q <:+ b ∧
      ∀ w e, b = w ++ e → ¬ re.Matches w) := by
  rcases h b with ⟨w, r, a, h1, h2, h3, h4⟩ | ⟨q, k, h1, h2, h3⟩
  · refine .inl ⟨w, r, recognize_ok h1 h2, h2, h3, ?_⟩
    rw [h2] at h4
    exact h4
  · refine .inr ⟨q, k, by simp [recognize, h1], h2, ?_⟩
    rintro w e rfl
    exact h3 w (List.prefix_append _ _)

theorem nameEnd_iff {e : Str} : NameEnd e ↔ e = [] ∨ ∃ c e', e = c :: e' ∧ isIdentChar c = false := by
  unfold NameEnd
  constructor
  · intro h
    cases e with
    | nil => exact .inl rfl
    | cons c e => exact .inr ⟨c, e, rfl, h c e rfl⟩
  · rintro (rfl | ⟨c, e', rfl, h⟩) c' e'' h'
    · simp at h'
    · simp at h'; exact h'.1 ▸ h

theorem identTag_append {t e : Str} (h : NameEnd e) : identTag t (t ++ e) = .ok e t := by
  simp only [identTag, tag_append]
  cases e with
  | nil => rfl
  | cons c e => simp [isIdentByte_eq, h c e rfl]

theorem identTag_cases (t s : Str) :
    (∃ e, s = t ++ e ∧ NameEnd e ∧ identTag t s = .ok e t) ∨
    (identTag t s = .err (.error s .tag) ∧ ∀ e, s = t ++ e → ¬ NameEnd e) := by
  rcases tag_cases t s with ⟨r, rfl, h⟩ | ⟨h1, h2⟩
  · cases r with
    | nil => exact .inl ⟨[], rfl, by simp [NameEnd], identTag_append (by simp [NameEnd])⟩
    | cons c r =>
      cases hc : isIdentChar c with
      | false =>
        have : NameEnd (c :: r) := nameEnd_iff.2 (.inr ⟨c, r, rfl, hc⟩)
        exact .inl ⟨_, rfl, this, identTag_append this⟩
      | true =>
        refine .inr ⟨by simp [identTag, h, isIdentByte_eq, hc], ?_⟩
        intro e he
        simp at he
        subst he
        intro h'
        have := h' c r rfl
        simp [hc] at this
  · refine .inr ⟨by simp [identTag, h2], ?_⟩
    rintro e rfl
    exact absurd (List.prefix_append _ _) h1

theorem word_cons {v : Str} (h : Regex.word.Matches v) : ∃ c v', v = c :: v' ∧
    c.isAlpha = true ∧ ∀ x ∈ v, isIdentChar x = true := by
  obtain ⟨u, w, rfl, h1, h2⟩ := Regex.matches_seq.1 h
  obtain ⟨c, rfl, hc⟩ := Regex.matches_cls.1 h1
  refine ⟨c, w, rfl, (isAlpha_iff c).2 hc, ?_⟩
  intro x hx
  rw [isIdentChar_iff]
  simp at hx
  rcases hx with rfl | hx
  · grind
  · exact Regex.matches_star_cls.1 h2 x hx

theorem word_iff {v : Str} : Regex.word.Matches v ↔ ∃ c v', v = c :: v' ∧
    c.isAlpha = true ∧ ∀ x ∈ v', isIdentChar x = true := by
  constructor
  · intro h
    obtain ⟨c, v', rfl, h1, h2⟩ := word_cons h
    exact ⟨c, v', rfl, h1, fun x hx => h2 x (by simp [hx])⟩
  · rintro ⟨c, v', rfl, h1, h2⟩
    exact .seq (u := [c]) (.cls ((isAlpha_iff c).1 h1))
      (Regex.matches_star_cls.2 fun x hx => (isIdentChar_iff x).1 (h2 x hx))

theorem takeWhile_nameEnd {v e : Str} (h : ∀ x ∈ v, isIdentChar x = true) (he : NameEnd e) :
    (v ++ e).takeWhile isIdentChar = v ∧ (v ++ e).dropWhile isIdentChar = e := by
  induction v with
  | nil =>
    cases e with
    | nil => simp
    | cons c e => simp [he c e rfl]
  | cons c v ih =>
    have := ih fun x hx => h x (by simp [hx])
    have hc := h c (by simp)
    simp [hc, this]

/-- Maximality of a word is that no name character follows. -/
theorem longest_word {w e : Str} (h : Regex.word.Matches w) :
    Longest Regex.word w e ↔ NameEnd e := by
  obtain ⟨c, v, rfl, h1, h2⟩ := word_iff.1 h
  constructor
  · rintro hl d e' rfl
    cases hd : isIdentChar d with
    | false => rfl
    | true =>
      have := hl (c :: v ++ [d]) ⟨e', by simp⟩ (word_iff.2 ⟨c, v ++ [d], rfl, h1, by
        intro x hx; simp at hx; rcases hx with hx | rfl
        · exact h2 x hx
        · exact hd⟩)
      simp at this
      omega
  · intro he w' hw hm
    obtain ⟨c', v', rfl, h1', h2'⟩ := word_iff.1 hm
    simp at hw ⊢
    have := takeWhile_prefix hw.2 h2'
    rwa [(takeWhile_nameEnd h2 he).1] at this

theorem core_ident_ok {w e v : Str} (h1 : w = v ∨ w = '_' :: v) (h2 : Regex.word.Matches v)
    (h3 : NameEnd e) : core .ident (w ++ e) = .ok e v := by
  have hw : recognize (seq (takeWhile1 Char.isAlpha) fun _ =>
        seq (takeWhile isIdentChar) fun _ => Nom.ret ()) (v ++ e) = .ok e v := by
    rcases rec_word (v ++ e) with ⟨w', r, a, h4, h5⟩ | ⟨q, k, h4, h5, h6⟩
    · have := LongestMatch.unique h5 ⟨rfl, h2, (longest_word h2).2 h3⟩
      obtain ⟨rfl, rfl⟩ := this
      exact recognize_ok h4 rfl
    · exact absurd h2 (h6 v (List.prefix_append _ _))
  have hc : ∀ W : P Char Str, W (v ++ e) = .ok e v →
      (seq (Nom.opt (Nom.char '_')) fun _ => seq W fun id => Nom.ret id) (w ++ e) = .ok e v := by
    intro W hW
    obtain ⟨c, v', rfl, hc, -⟩ := word_iff.1 h2
    rcases h1 with rfl | rfl
    · have : Nom.char '_' (c :: v' ++ e) = .err (.error (c :: v' ++ e) .char) := by
        have : c ≠ '_' := by rintro rfl; exact absurd hc (by decide)
        simp [Nom.char, this]
      simp only [Nom.seq, Nom.opt, this, hW, Nom.ret]
    · simp only [Nom.seq, Nom.opt, List.cons_append, Nom.char, if_true] at hW ⊢
      simp only [hW, Nom.ret]
  exact hc _ hw

theorem core_ident_cases (b : Str) : CoreSpec .ident b := by
  rcases rec_ident b with ⟨w, r, a, h1, h2, h3, h4⟩ | ⟨q, k, h1, h2, h3⟩
  · obtain ⟨u, v, rfl, hu, hv⟩ := Regex.matches_seq.1 h3
    have hend : NameEnd r := by
      rw [← longest_word hv]
      intro w' hw' hm
      have := h4 (u ++ w') (by rw [h2]; simpa using hw') (.seq hu hm)
      simp at this
      exact this
    have hw : u ++ v = v ∨ u ++ v = '_' :: v := by
      rcases Regex.matches_opt.1 hu with h | rfl
      · rw [Regex.matches_chr.1 h]; exact .inr rfl
      · exact .inl rfl
    refine .inl ⟨u ++ v, r, v, ?_, h2, ⟨hw, hv⟩, hend⟩
    rw [h2]
    exact core_ident_ok hw hv hend
  · refine .inr ⟨q, k, h1, h2, ?_⟩
    rintro w e v rfl ⟨hw, hv⟩ -
    refine h3 w (List.prefix_append _ _) ?_
    rcases hw with rfl | rfl
    · exact .seq (u := []) (Regex.matches_opt.2 (.inr rfl)) hv
    · exact .seq (u := ['_']) (Regex.matches_opt.2 (.inl (Regex.matches_chr.2 rfl))) hv

theorem dropWhile_nil {p : Char → Bool} {l : Str} (h : l.dropWhile p = []) :
    ∀ x ∈ l, p x = true := by
  induction l with
  | nil => simp
  | cons a l ih =>
    by_cases ha : p a
    · simp [ha] at h
      intro x hx
      simp at hx
      rcases hx with rfl | hx
      · exact ha
      · exact ih h x hx
    · simp [ha] at h

theorem core_string_cases (b : Str) : CoreSpec .string b := by
  cases b with
  | nil => exact .inr ⟨_, _, rfl, List.suffix_refl _, by
      rintro w e v h1 ⟨rfl, -⟩; simp at h1⟩
  | cons c b =>
    by_cases hc : c = '"'
    · subst hc
      cases h : b.dropWhile (fun c => c != '"') with
      | nil =>
        refine .inr ⟨[], .char, ?_, List.nil_suffix, ?_⟩
        · simp [core, Nom.seq, Nom.char, takeWhile, h]
        · rintro w e v h1 ⟨rfl, h3⟩ -
          simp at h1
          subst h1
          have := dropWhile_nil h '"' (by simp)
          simp at this
      | cons d r =>
        have hd : d = '"' := by
          have := List.head?_dropWhile_not (fun c => c != '"') b
          rw [h] at this
          simpa using this
        subst hd
        have hb : b = b.takeWhile (fun c => c != '"') ++ '"' :: r := by
          rw [← h]; simp
        refine .inl ⟨'"' :: b.takeWhile (fun c => c != '"') ++ ['"'], r,
          b.takeWhile (fun c => c != '"'), ?_, ?_, ⟨rfl, ?_⟩, trivial⟩
        · simp [core, Nom.seq, Nom.char, takeWhile, h, Nom.ret]
        · simp; exact hb
        · intro hm
          have := mem_takeWhile_imp hm
          simp at this
    · refine .inr ⟨_, .char, ?_, List.suffix_refl _, ?_⟩
      · simp [core, Nom.seq, Nom.char, hc]
      · rintro w e v h ⟨rfl, -⟩
        simp at h
        exact absurd h.1 hc

theorem core_cases {α : Type} (l : Leaf α) (b : Str) : CoreSpec l b := by
  cases l with
  | punct p =>
    rcases tag_cases p.text b with ⟨r, h1, h2⟩ | ⟨h1, h2⟩
    · exact .inl ⟨p.text, r, (), by simp [core, Nom.map, Nom.seq, h2, Nom.ret], h1, rfl, trivial⟩
    · refine .inr ⟨b, .tag, by simp [core, Nom.map, Nom.seq, h2], List.suffix_refl _, ?_⟩
      rintro w e v rfl rfl
      exact absurd (List.prefix_append _ _) h1
  | kw k =>
    rcases identTag_cases k.text b with ⟨e, h1, h2, h3⟩ | ⟨h1, h2⟩
    · exact .inl ⟨k.text, e, (), by simp [core, Nom.map, Nom.seq, h3, Nom.ret], h1, rfl, h2⟩
    · refine .inr ⟨b, .tag, by simp [core, Nom.map, Nom.seq, h1], List.suffix_refl _, ?_⟩
      rintro w e v h rfl
      exact h2 e h
  | ident => exact core_ident_cases b
  | string => exact core_string_cases b
  | dec =>
    rcases coreSpec_rec rec_dec b with ⟨w, e, h1, h2, h3, h4⟩ | ⟨q, k, h1, h2, h3⟩
    · exact .inl ⟨w, e, w, h1, h2, ⟨rfl, h3⟩, h4⟩
    · refine .inr ⟨q, k, h1, h2, ?_⟩
      rintro w e v h ⟨rfl, h'⟩
      exact absurd h' (h3 w e h)
  | hex =>
    rcases coreSpec_rec rec_hex b with ⟨w, e, h1, h2, h3, h4⟩ | ⟨q, k, h1, h2, h3⟩
    · exact .inl ⟨w, e, w, h1, h2, ⟨rfl, h3⟩, h4⟩
    · refine .inr ⟨q, k, h1, h2, ?_⟩
      rintro w e v h ⟨rfl, h'⟩
      exact absurd h' (h3 w e h)
  | oct =>
    rcases coreSpec_rec rec_oct b with ⟨w, e, h1, h2, h3, h4⟩ | ⟨q, k, h1, h2, h3⟩
    · exact .inl ⟨w, e, w, h1, h2, ⟨rfl, h3⟩, h4⟩
    · refine .inr ⟨q, k, h1, h2, ?_⟩
      rintro w e v h ⟨rfl, h'⟩
      exact absurd h' (h3 w e h)
  | float =>
    rcases coreSpec_rec rec_float b with ⟨w, e, h1, h2, h3, h4⟩ | ⟨q, k, h1, h2, h3⟩
    · exact .inl ⟨w, e, w, h1, h2, ⟨rfl, h3⟩, h4⟩
    · refine .inr ⟨q, k, h1, h2, ?_⟩
      rintro w e v h ⟨rfl, h'⟩
      exact absurd h' (h3 w e h)

/-- A text has at most one match per leaf. -/
theorem leafText_unique {α : Type} {l : Leaf α} {w e w' e' : Str} {v v' : α}
    (h : w ++ e = w' ++ e') (h1 : LeafText l w v) (h2 : LeafEnd l w e)
    (h1' : LeafText l w' v') (h2' : LeafEnd l w' e') : w = w' ∧ e = e' ∧ v = v' := by
  have two : ∀ {re : Regex} {w e w' e' : Str}, w ++ e = w' ++ e' → re.Matches w →
      Longest re w e → re.Matches w' → Longest re w' e' → w = w' ∧ e = e' := by
    intro re w e w' e' h m l m' l'
    have a := l w' (by rw [h]; exact List.prefix_append _ _) m'
    have b := l' w (by rw [← h]; exact List.prefix_append _ _) m
    exact List.append_inj h (by omega)
  cases l with
  | punct p => cases h1; cases h1'; simp at h; exact ⟨rfl, h, rfl⟩
  | kw k => cases h1; cases h1'; simp at h; exact ⟨rfl, h, rfl⟩
  | ident =>
    have a := core_ident_ok h1.1 h1.2 h2
    have b := core_ident_ok h1'.1 h1'.2 h2'
    rw [h, b] at a
    simp at a
    obtain ⟨rfl, rfl⟩ := a
    have := List.append_cancel_right h
    exact ⟨this, rfl, rfl⟩
  | dec =>
    obtain ⟨rfl, m⟩ := h1
    obtain ⟨rfl, m'⟩ := h1'
    obtain ⟨rfl, rfl⟩ := two h m h2 m' h2'
    exact ⟨rfl, rfl, rfl⟩
  | hex =>
    obtain ⟨rfl, m⟩ := h1
    obtain ⟨rfl, m'⟩ := h1'
    obtain ⟨rfl, rfl⟩ := two h m h2 m' h2'
    exact ⟨rfl, rfl, rfl⟩
  | oct =>
    obtain ⟨rfl, m⟩ := h1
    obtain ⟨rfl, m'⟩ := h1'
    obtain ⟨rfl, rfl⟩ := two h m h2 m' h2'
    exact ⟨rfl, rfl, rfl⟩
  | float =>
    obtain ⟨rfl, m⟩ := h1
    obtain ⟨rfl, m'⟩ := h1'
    obtain ⟨rfl, rfl⟩ := two h m h2 m' h2'
    exact ⟨rfl, rfl, rfl⟩
  | string =>
    obtain ⟨rfl, m⟩ := h1
    obtain ⟨rfl, m'⟩ := h1'
    simp at h
    obtain ⟨rfl, -, h⟩ := digits_dot_inj (f := (· ≠ '"')) h (by grind) (by grind) (by simp) (by simp)
    exact ⟨rfl, h, rfl⟩

theorem core_ok_iff {α : Type} {l : Leaf α} {b e : Str} {v : α} :
    core l b = .ok e v ↔ ∃ w, b = w ++ e ∧ LeafText l w v ∧ LeafEnd l w e := by
  rcases core_cases l b with ⟨w, e', v', h1, h2, h3, h4⟩ | ⟨q, k, h1, h2, h3⟩
  · constructor
    · intro h
      rw [h1] at h
      simp at h
      obtain ⟨rfl, rfl⟩ := h
      exact ⟨w, h2, h3, h4⟩
    · rintro ⟨w', h5, h6, h7⟩
      obtain ⟨rfl, rfl, rfl⟩ := leafText_unique (h2.symm.trans h5) h3 h4 h6 h7
      exact h1
  · constructor
    · intro h; rw [h1] at h; cases h
    · rintro ⟨w', h5, h6, h7⟩
      exact absurd h7 (h3 _ _ _ h5 h6)

theorem leafText_ne_nil {α : Type} {l : Leaf α} {w : Str} {v : α} (h : LeafText l w v) : w ≠ [] := by
  have opt : ∀ {c : Char} {b : Regex}, Starts (fun _ => True) b →
      (Regex.opt (Regex.chr c) ⬝ b).Matches w → w ≠ [] := by
    intro c b hb h
    obtain ⟨c, v, rfl, -⟩ := starts_opt_seq (starts_chr trivial) hb w h
    simp
  cases l with
  | punct p => cases h; cases p <;> simp [Punct.text]
  | kw p => cases h; cases p <;> simp [Kw.text]
  | ident =>
    obtain ⟨h1, h2⟩ := h
    obtain ⟨c, v', rfl, -⟩ := word_iff.1 h2
    rcases h1 with rfl | rfl <;> simp
  | dec => exact opt (starts_seq (starts_cls (by simp))) (h.1 ▸ h.2)
  | hex => exact opt (starts_seq (starts_chr trivial)) (h.1 ▸ h.2)
  | oct => exact opt (starts_seq (starts_chr trivial)) (h.1 ▸ h.2)
  | float =>
    refine opt ?_ (h.1 ▸ h.2)
    refine starts_alt (starts_seq (starts_alt (starts_seq (starts_plus (by simp)))
      (starts_star_seq (by simp) (starts_seq (starts_chr trivial)))))
      (starts_seq (starts_plus (by simp)))
  | string => rw [h.1]; simp

/-- The leaf parsers, completely. -/
theorem charLeaf_ok_iff {α : Type} {l : Leaf α} {s r : Str} {v : α} :
    charLeaf α l s = .ok r v ↔
      ∃ w e, strip s = w ++ e ∧ LeafText l w v ∧ LeafEnd l w e ∧ r = strip e := by
  rw [charLeaf_eq]
  constructor
  · intro h
    cases h' : core l (strip s) with
    | ok e v' =>
      rw [h'] at h
      simp at h
      obtain ⟨rfl, rfl⟩ := h
      obtain ⟨w, h1, h2, h3⟩ := core_ok_iff.1 h'
      exact ⟨w, e, h1, h2, h3, rfl⟩
    | err e => rw [h'] at h; cases h
    | diverge => rw [h'] at h; cases h
  · rintro ⟨w, e, h1, h2, h3, rfl⟩
    rw [core_ok_iff.2 ⟨w, h1, h2, h3⟩]

theorem charLeaf_fine (α : Type) (l : Leaf α) (s : Str) : Fine true s (charLeaf α l s) := by
  rw [charLeaf_eq]
  have hs := strip_suffix s
  rcases core_cases l (strip s) with ⟨w, e, v, h1, h2, h3, h4⟩ | ⟨q, k, h1, h2, h3⟩ <;> rw [h1]
  · have hne := leafText_ne_nil h3
    have : strip e <:+ strip s := (strip_suffix e).trans ⟨w, h2.symm⟩
    refine ⟨this.trans hs, fun _ => ?_⟩
    have h5 := (strip_suffix e).length_le
    have h6 := hs.length_le
    have h7 := List.length_pos_iff.2 hne
    rw [h2, List.length_append] at h6
    omega
  · exact h2.trans hs

/-- A leaf depends only on the input after trivia. -/
theorem charLeaf_congr {α : Type} (l : Leaf α) {s s' : Str} (h : strip s = strip s') :
    charLeaf α l s = charLeaf α l s' := by
  rw [charLeaf_eq, charLeaf_eq, h]

theorem charLeaf_stripped {α : Type} {l : Leaf α} {s r : Str} {v : α}
    (h : charLeaf α l s = .ok r v) : NoTrivia r := by
  obtain ⟨w, e, -, -, -, rfl⟩ := charLeaf_ok_iff.1 h
  exact noTrivia_iff.2 (strip_strip e)

end Verif
