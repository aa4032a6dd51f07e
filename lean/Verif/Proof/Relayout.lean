import Verif.Spec.Layout
import Verif.Proof.Alphabet
import Verif.Proof.Append

/-! # Layout -/

namespace Verif
open Nom Spec

section
variable {f : Char → Str}

theorem relayout_plain {c : Char} (h : CodeChar c) (s : Str) :
    relayout f .code (c :: s) = (if c ∈ blanks then f c else [c]) ++ relayout f .code s := by
  obtain ⟨h1, h2⟩ := h
  rw [relayout] <;> grind

theorem relayout_line {v : Str} (hv : '\n' ∉ v) (s : Str) :
    relayout f .lineComment (v ++ '\n' :: s) = ' ' :: f '\n' ++ relayout f .code s := by
  induction v with
  | nil => simp [relayout]
  | cons c v ih =>
    simp at hv
    have := ih hv.2
    rw [List.cons_append, relayout] <;> grind

theorem relayout_block {b : Str} (hb : ¬ c!"*/" <:+: b) (s : Str) :
    relayout f .blockComment (b ++ '*' :: '/' :: s) = ' ' :: relayout f .code s := by
  induction b with
  | nil => simp [relayout]
  | cons c b ih =>
    have := ih fun h => hb (h.trans (List.suffix_cons c b).isInfix)
    have hne : ∀ s' : Str, c = '*' → b ++ '*' :: '/' :: s = '/' :: s' → False := by
      rintro s' rfl e
      cases b with
      | nil => simp at e
      | cons d b =>
        simp at e
        exact hb ⟨[], b, by simp [e.1]⟩
    rw [List.cons_append, relayout]
    · exact this
    · exact hne

theorem relayout_string {v : Str} (hv : '"' ∉ v) (s : Str) :
    relayout f .string (v ++ '"' :: s) = v ++ '"' :: relayout f .code s := by
  induction v with
  | nil => simp [relayout]
  | cons c v ih =>
    simp at hv
    have := ih hv.2
    rw [List.cons_append, relayout] <;> grind

theorem line_ends (s : Str) : ending .lineComment s = .lineComment ∨ ∃ v r, '\n' ∉ v ∧ s = v ++ '\n' :: r := by
  induction s with
  | nil => exact .inl rfl
  | cons c s ih =>
    by_cases hc : c = '\n'
    · exact .inr ⟨[], s, by simp, by simp [hc]⟩
    · rcases ih with h | ⟨v, r, h, rfl⟩
      · left
        rw [ending]
        · exact h
        · exact hc
      · exact .inr ⟨c :: v, r, by simp [h, Ne.symm hc], rfl⟩

theorem block_ends (s : Str) : ending .blockComment s = .blockComment ∨ ∃ v r, ¬ c!"*/" <:+: v ∧ s = v ++ '*' :: '/' :: r := by
  induction s with
  | nil => exact .inl rfl
  | cons c s ih =>
    by_cases hc : ∃ r, c = '*' ∧ s = '/' :: r
    · obtain ⟨r, rfl, rfl⟩ := hc
      exact .inr ⟨[], r, by simp, rfl⟩
    · rcases ih with h | ⟨v, r, h, rfl⟩
      · left
        rw [ending]
        · exact h
        · exact fun r e e' => hc ⟨r, e, e'⟩
      · refine .inr ⟨c :: v, r, fun hi => ?_, rfl⟩
        rcases List.infix_cons_iff.1 hi with hp | hp
        · obtain ⟨x, hx⟩ := hp
          simp at hx
          obtain ⟨rfl, hx⟩ := hx
          refine hc ⟨x ++ '*' :: '/' :: r, rfl, ?_⟩
          rw [← hx]
          rfl
        · exact h hp

/-- What a text begins with. -/
inductive View (f : Char → Str) : Str → Prop where
  | nil : View f []
  | quote (s : Str) : View f ('"' :: s)
  | white {t u s : Str} (ht : Trivia t) (htn : t ≠ []) (h0 : ∀ c, t.head? = some c → c ∈ blanks ∨ c = '/') (hu : ∀ c ∈ u, c ∈ blanks)
      (hun : u ≠ []) (h : relayout f .code (t ++ s) = u ++ relayout f .code s) (he : ending .code (t ++ s) = ending .code s) : View f (t ++ s)
  | char {c : Char} {s : Str} (hc : c ∉ blanks) (hq : c ≠ '"') (hs : c = '/' → ∀ d, s.head? = some d → d ≠ '/' ∧ d ≠ '*')
      (h : relayout f .code (c :: s) = c :: relayout f .code s) (he : ending .code (c :: s) = ending .code s) : View f (c :: s)

theorem view (hf : Blank f) {s : Str} (hs : NoOpenComment s) : View f s := by
  cases s with
  | nil => exact .nil
  | cons c s =>
    by_cases hq : c = '"'
    · subst hq
      exact .quote s
    by_cases hb : c ∈ blanks
    · have hp : CodeChar c := ⟨hq, by rintro rfl; revert hb; decide⟩
      exact .white (t := [c]) (u := f c) (.white hb .nil) (by simp) (by rintro d ⟨⟩; exact .inl hb) (hf c hb).2 (hf c hb).1
        (by rw [List.singleton_append, relayout_plain hp, if_pos hb]) (ending_plain hp s)
    by_cases hc : c = '/'
    · subst hc
      by_cases h1 : ∃ r, s = '/' :: r
      · obtain ⟨r, rfl⟩ := h1
        rcases line_ends r with h | ⟨v, r, h, rfl⟩
        · refine absurd ?_ hs.1
          rw [ending]
          exact h
        · have e : '/' :: '/' :: (v ++ '\n' :: r) = (c!"//" ++ v ++ c!"\n" ++ []) ++ r := by simp
          rw [e]
          have h2 : Blank f := hf
          refine .white (u := ' ' :: f '\n') (.line h .nil) (by simp) (by rintro d ⟨⟩; exact .inr rfl) ?_ (by simp) ?_ ?_
          · intro d hd
            rcases List.mem_cons.1 hd with rfl | hd
            · decide
            · exact (hf _ (by decide)).2 d hd
          · rw [← e, relayout, relayout_line h]
          · rw [← e, ending, (outside_line h r).2]
      by_cases h2 : ∃ r, s = '*' :: r
      · obtain ⟨r, rfl⟩ := h2
        rcases block_ends r with h | ⟨v, r, h, rfl⟩
        · refine absurd ?_ hs.2
          rw [ending]
          exact h
        · have e : '/' :: '*' :: (v ++ '*' :: '/' :: r) = (c!"/*" ++ v ++ c!"*/" ++ []) ++ r := by simp
          rw [e]
          refine .white (u := [' ']) (.block h .nil) (by simp) (by rintro d ⟨⟩; exact .inr rfl) (by decide) (by simp) ?_ ?_
          · rw [← e, relayout, relayout_block h]
            rfl
          · rw [← e, ending, (outside_block h r).2]
      · have h3 : ∀ d, s.head? = some d → d ≠ '/' ∧ d ≠ '*' := by
          intro d hd
          cases s with
          | nil => simp at hd
          | cons x s =>
            simp at hd
            subst hd
            exact ⟨by rintro rfl; exact h1 ⟨s, rfl⟩, by rintro rfl; exact h2 ⟨s, rfl⟩⟩
        refine .char hb hq (fun _ => h3) ?_ ?_
        · rw [relayout, if_neg hb]
          · rfl
          · exact hq
          · intro r _ e
            exact h1 ⟨r, e⟩
          · intro r _ e
            exact h2 ⟨r, e⟩
        · rw [ending]
          · exact hq
          · intro r _ e
            exact h1 ⟨r, e⟩
          · intro r _ e
            exact h2 ⟨r, e⟩
    · exact .char hb hq (fun h => absurd h hc) (by rw [relayout_plain ⟨hq, hc⟩, if_neg hb]; rfl) (ending_plain ⟨hq, hc⟩ s)

theorem closed_of {s s' : Str} (e : ending .code s = ending .code s') (h : NoOpenComment s) : NoOpenComment s' := by
  rwa [NoOpenComment, ← e]

theorem head_relayout (hf : Blank f) {s : Str} (hs : NoOpenComment s) :
    s.head? = (relayout f .code s).head? ∨
      ((∀ c, s.head? = some c → c ∈ blanks ∨ c = '/') ∧ ∀ c, (relayout f .code s).head? = some c → c ∈ blanks ∨ c = '/') := by
  cases view hf hs with
  | nil => exact .inl rfl
  | quote s => left; rw [relayout]; rfl
  | @white t u s _ htn h0 hu hun h =>
    right
    rw [h]
    cases t with
    | nil => exact absurd rfl htn
    | cons c t =>
      cases u with
      | nil => exact absurd rfl hun
      | cons d u =>
        refine ⟨fun x hx => h0 x hx, ?_⟩
        rintro x ⟨⟩
        exact .inl (hu d (by simp))
  | char _ _ _ h => left; rw [h]; rfl

theorem blank_not {c : Char} (h : c ∈ blanks ∨ c = '/') : ¬ NameChar c ∧ c ≠ '.' ∧ c ≠ '+' := by
  have : ∀ c ∈ '/' :: blanks, ¬ NameChar c ∧ c ≠ '.' ∧ c ≠ '+' := by decide
  exact this c (by simpa [or_comm] using h)

theorem separate_of {w s s' : Str} (h : s.head? = s'.head? ∨ ∀ c, s'.head? = some c → c ∈ blanks ∨ c = '/') (hw : Separate w s) : Separate w s' := by
  rcases h with h | h
  · unfold Separate Apart at hw ⊢
    rwa [h] at hw
  · exact ⟨fun c d _ hd _ => (blank_not (h d hd)).1, fun _ c hc => blank_not (h c hc)⟩

theorem separate_relayout (hf : Blank f) {w s : Str} (hs : NoOpenComment s) : Separate w (relayout f .code s) ↔ Separate w s := by
  rcases head_relayout hf hs with h | ⟨h1, h2⟩
  · exact ⟨separate_of (.inl h.symm), separate_of (.inl h)⟩
  · exact ⟨separate_of (.inr h1), separate_of (.inr h2)⟩

theorem alphabet_item {w : Str} (h : ∀ c ∈ w, c ∈ alphabet ∧ c ∉ blanks) : ∀ c ∈ w, CodeChar c ∧ c ∉ blanks :=
  fun c hc => ⟨alphabet_plain c (h c hc).1, (h c hc).2⟩

theorem not_blank_of {p : Char → Prop} (hp : ∀ c ∈ blanks, ¬ p c) {c : Char} (h : p c) : c ∉ blanks := fun hc => hp c hc h

theorem uses_not_blank {w : Str} (h : Regex.identifier.Matches w ∨ Numeral w) : ∀ c ∈ w, c ∉ blanks := by
  have key (r : Regex) (hr : ∀ c ∈ blanks, ¬ r.Uses c) (h : r.Matches w) : ∀ c ∈ w, c ∉ blanks :=
    fun c hc hb => hr c hb (h.uses c hc)
  rcases h with h | h | h | h | h
  all_goals
    refine key _ ?_ h
    intro c hc
    simp only [blanks, List.mem_cons, List.not_mem_nil, or_false] at hc
    rcases hc with rfl | rfl | rfl | rfl <;>
      simp only [Regex.identifier, Regex.dec, Regex.hex, Regex.oct, Regex.float, Regex.exponent, Regex.plus, Regex.opt, Regex.chr,
        Regex.digit, Regex.digit1, Regex.octDigit, Regex.hexDigit, Regex.word, Regex.letter, Regex.nameChar, Regex.Uses] <;> decide

/-- The characters of an item. -/
theorem item_chars {w : Str} (h : Item w) : (∀ c ∈ w, CodeChar c ∧ c ∉ blanks) ∨ ∃ v, '"' ∉ v ∧ w = '"' :: (v ++ ['"']) := by
  cases h with
  | word h => exact .inl fun c hc => ⟨alphabet_plain c (uses_identifier (h.uses c hc)), uses_not_blank (.inl h) c hc⟩
  | negInfinity => exact .inl (by unfold CodeChar; decide)
  | number h => exact .inl fun c hc => ⟨alphabet_plain c (uses_numeral h c hc), uses_not_blank (.inr h) c hc⟩
  | punct h =>
    have : ∀ w ∈ punctuation, ∀ c ∈ w, (c ≠ '"' ∧ c ≠ '/') ∧ c ∉ blanks := by decide
    exact .inl (this w h)
  | string h =>
    obtain ⟨v, h1, h2⟩ := string_item.1 h
    simp at h2
    exact .inr ⟨v, h1, by simpa using h2⟩

theorem item_relayout {w : Str} (h : Item w) (s : Str) :
    relayout f .code (w ++ s) = w ++ relayout f .code s ∧ ending .code (w ++ s) = ending .code s := by
  refine ⟨?_, (outside_item h s).2⟩
  have h' := item_chars h
  clear h
  rcases h' with h | ⟨v, hv, rfl⟩
  · induction w with
    | nil => rfl
    | cons c w ih =>
      rw [List.cons_append, relayout_plain (h c (by simp)).1, if_neg (h c (by simp)).2, ih fun d hd => h d (by simp [hd])]
      rfl
  · have e : '"' :: (v ++ ['"']) ++ s = '"' :: (v ++ '"' :: s) := by simp
    rw [e, relayout, relayout_string hv]
    simp

theorem trivia_relayout (hf : Blank f) {t : Str} (ht : Trivia t) (s : Str) :
    ∃ u, (∀ c ∈ u, c ∈ blanks) ∧ relayout f .code (t ++ s) = u ++ relayout f .code s := by
  induction ht with
  | nil => exact ⟨[], by simp, rfl⟩
  | @white c t hc _ ih =>
    have hp : CodeChar c := by
      simp only [List.mem_cons, List.not_mem_nil, or_false] at hc
      rcases hc with rfl | rfl | rfl | rfl <;> exact ⟨by decide, by decide⟩
    obtain ⟨u, h1, h2⟩ := ih
    have hc' : c ∈ blanks := hc
    refine ⟨f c ++ u, fun d hd => (List.mem_append.1 hd).elim ((hf c hc).2 d) (h1 d), ?_⟩
    rw [List.cons_append, relayout_plain hp, h2, if_pos hc', List.append_assoc]
  | @line b t hb _ ih =>
    obtain ⟨u, h1, h2⟩ := ih
    have e : c!"//" ++ b ++ c!"\n" ++ t ++ s = '/' :: '/' :: (b ++ '\n' :: (t ++ s)) := by simp
    refine ⟨' ' :: f '\n' ++ u, fun d hd => ?_, ?_⟩
    · rcases List.mem_append.1 hd with hd | hd
      · rcases List.mem_cons.1 hd with rfl | hd
        · decide
        · exact (hf _ (by decide)).2 d hd
      · exact h1 d hd
    · rw [e, relayout, relayout_line hb, h2]
      simp
  | @block b t hb _ ih =>
    obtain ⟨u, h1, h2⟩ := ih
    have e : c!"/*" ++ b ++ c!"*/" ++ t ++ s = '/' :: '*' :: (b ++ '*' :: '/' :: (t ++ s)) := by simp
    refine ⟨' ' :: u, fun d hd => (List.mem_cons.1 hd).elim (fun e => e ▸ by decide) (h1 d), ?_⟩
    rw [e, relayout, relayout_block hb, h2]
    rfl

theorem trivia_blanks {u : Str} (h : ∀ c ∈ u, c ∈ blanks) : Trivia u := by
  induction u with
  | nil => exact .nil
  | cons c u ih => exact .white (h c (by simp)) (ih fun d hd => h d (by simp [hd]))

theorem items_closed {ls : List Str} {s : Str} (h : Items ls s) : NoOpenComment s := by
  unfold NoOpenComment
  rw [(outside_items h).2]
  exact ⟨by simp, by simp⟩

theorem items_relayout (hf : Blank f) {ls : List Str} {s : Str} (h : Items ls s) : Items ls (relayout f .code s) := by
  induction h with
  | nil => exact .nil
  | @cons w ws t s hw ht hs ha ih =>
    have hc : NoOpenComment (t ++ s) := closed_of (item_relayout (f := f) hw _).2 (items_closed (.cons hw ht hs ha))
    have h1 := (separate_relayout hf hc).2 ha
    obtain ⟨u, h2, h3⟩ := trivia_relayout hf ht s
    rw [h3] at h1
    rw [(item_relayout hw _).1, h3]
    exact .cons hw (trivia_blanks h2) ih h1

theorem lexes_relayout (hf : Blank f) {ls : List Str} {s : Str} (h : Lexes s ls) : Lexes (relayout f .code s) ls := by
  obtain ⟨t, b, rfl, ht, hb⟩ := h
  obtain ⟨u, h2, h3⟩ := trivia_relayout hf ht b
  exact ⟨u, _, h3, trivia_blanks h2, items_relayout hf hb⟩

/-! ## Back -/

theorem chars_back (hf : Blank f) {w : Str} (hw : ∀ c ∈ w, CodeChar c ∧ c ∉ blanks) : ∀ {s r : Str}, NoOpenComment s →
    relayout f .code s = w ++ r → ∃ s', s = w ++ s' ∧ relayout f .code s' = r ∧ NoOpenComment s' := by
  induction w with
  | nil => exact fun {s r} hs h => ⟨s, rfl, h, hs⟩
  | cons c w ih =>
    intro s r hs h
    obtain ⟨h1, h2⟩ := hw c (by simp)
    have hv := view hf hs
    generalize hx : s = x at hv
    cases hv with
    | nil => subst hx; simp [relayout] at h
    | quote s => subst hx; rw [relayout] at h; simp at h; exact absurd h.1.symm h1.1
    | @white t u s' _ _ _ hu hun h3 =>
      subst hx
      rw [h3] at h
      cases u with
      | nil => exact absurd rfl hun
      | cons d u =>
        simp at h
        exact absurd (hu d (by simp)) (h.1 ▸ h2)
    | @char d s' _ _ _ h3 he =>
      subst hx
      rw [h3] at h
      simp at h
      obtain ⟨rfl, h⟩ := h
      obtain ⟨s2, rfl, h4, h5⟩ := ih (fun e he => hw e (by simp [he])) (closed_of he hs) h
      exact ⟨s2, rfl, h4, h5⟩

theorem string_back {v : Str} (hv : '"' ∉ v) : ∀ {s r : Str}, relayout f .string s = v ++ '"' :: r →
    ∃ s', s = v ++ '"' :: s' ∧ relayout f .code s' = r := by
  induction v with
  | nil =>
    intro s r h
    cases s with
    | nil => simp [relayout] at h
    | cons c s =>
      by_cases hc : c = '"'
      · subst hc
        rw [relayout] at h
        exact ⟨s, rfl, by simpa using h⟩
      · rw [relayout] at h
        · simp at h
          exact absurd h.1 hc
        · exact hc
  | cons d v ih =>
    intro s r h
    simp at hv
    cases s with
    | nil => simp [relayout] at h
    | cons c s =>
      by_cases hc : c = '"'
      · subst hc
        rw [relayout] at h
        simp at h
        exact absurd h.1 hv.1
      · rw [relayout] at h
        · simp at h
          obtain ⟨rfl, h⟩ := h
          obtain ⟨s', rfl, h'⟩ := ih hv.2 h
          exact ⟨s', rfl, h'⟩
        · exact hc

theorem item_back (hf : Blank f) {w : Str} (hw : Item w) {s r : Str} (hs : NoOpenComment s) (h : relayout f .code s = w ++ r) :
    ∃ s', s = w ++ s' ∧ relayout f .code s' = r ∧ NoOpenComment s' := by
  rcases item_chars hw with h1 | ⟨v, hv, rfl⟩
  · exact chars_back hf h1 hs h
  · have hw' := view hf hs
    generalize hx : s = x at hw'
    cases hw' with
    | nil => subst hx; simp [relayout] at h
    | quote s =>
      subst hx
      rw [relayout] at h
      simp at h
      obtain ⟨s', rfl, h2⟩ := string_back hv h
      refine ⟨s', by simp, h2, closed_of ?_ hs⟩
      rw [ending, (outside_string hv s').2]
    | @white t u s' _ _ _ hu hun h3 =>
      subst hx
      rw [h3] at h
      cases u with
      | nil => exact absurd rfl hun
      | cons d u =>
        simp at h
        exact absurd (hu d (by simp)) (h.1 ▸ by decide)
    | @char d s' _ hq _ h3 he =>
      subst hx
      rw [h3] at h
      simp at h
      exact absurd h.1 hq

theorem no_slash (hf : Blank f) {s : Str} (hs : NoOpenComment s) {d : Char} (hd : d = '/' ∨ d = '*') {r : Str} :
    relayout f .code s ≠ '/' :: d :: r := by
  intro h
  have hv := view hf hs
  generalize hx : s = x at hv
  cases hv with
  | nil => subst hx; simp [relayout] at h
  | quote s => subst hx; rw [relayout] at h; simp at h
  | @white t u s' _ _ _ hu hun h3 =>
    subst hx
    rw [h3] at h
    cases u with
    | nil => exact absurd rfl hun
    | cons d u =>
      simp at h
      exact absurd (hu d (by simp)) (h.1 ▸ by decide)
  | @char c s' _ hq hs' h3 he =>
    subst hx
    rw [h3] at h
    simp at h
    obtain ⟨rfl, h⟩ := h
    have h5 := hs' rfl d
    rcases head_relayout hf (closed_of he hs) with h6 | ⟨-, h6⟩
    · rw [h] at h6
      have := h5 h6
      grind
    · have h6 := h6 d (by rw [h]; rfl)
      have hv := view hf (closed_of he hs)
      generalize hx : s' = x at hv
      cases hv with
      | nil => subst hx; simp [relayout] at h
      | quote s => subst hx; rw [relayout] at h; simp at h; rcases hd with rfl | rfl <;> simp at h
      | @white t u s2 _ _ _ hu hun h7 =>
        subst hx
        rw [h7] at h
        cases u with
        | nil => exact absurd rfl hun
        | cons e u =>
          simp at h
          have h8 := hu e (by simp)
          rw [h.1] at h8
          rcases hd with rfl | rfl <;> revert h8 <;> decide
      | @char e s2 _ _ _ h7 =>
        subst hx
        rw [h7] at h
        simp at h
        have := h5 (by simp [h.1])
        grind

theorem trivia_back (hf : Blank f) {t : Str} (ht : Trivia t) : ∀ {u s r : Str}, (∀ c ∈ u, c ∈ blanks) → NoOpenComment s →
    u ++ relayout f .code s = t ++ r → (∀ c, r.head? = some c → c ∉ blanks) →
    ∃ t' s', s = t' ++ s' ∧ Trivia t' ∧ relayout f .code s' = r ∧ NoOpenComment s' := by
  have slash {u s r : Str} {d : Char} (hd : d = '/' ∨ d = '*') (hu : ∀ c ∈ u, c ∈ blanks) (hs : NoOpenComment s)
      (h : u ++ relayout f .code s = '/' :: d :: r) : False := by
    cases u with
    | nil => exact no_slash hf hs hd h
    | cons c u =>
      simp at h
      exact absurd (hu c (by simp)) (h.1 ▸ by decide)
  induction ht with
  | nil =>
    intro u s r hu hs h hr
    cases u with
    | nil => exact ⟨[], s, rfl, .nil, h, hs⟩
    | cons c u => exact absurd (hu c (by simp)) (hr c (by rw [← List.nil_append r, ← h]; rfl))
  | @white c t hc ht ih =>
    intro u s r hu hs h hr
    cases u with
    | cons d u =>
      simp at h
      exact ih (fun e he => hu e (by simp [he])) hs h.2 hr
    | nil =>
      have hc' : c ∈ blanks := hc
      have hv := view hf hs
      generalize hx : s = x at hv
      cases hv with
      | nil => subst hx; simp [relayout] at h
      | quote s => subst hx; rw [relayout] at h; simp at h; exact absurd hc' (h.1 ▸ by decide)
      | @white t1 u s' ht1 _ _ hu hun h3 he =>
        subst hx
        rw [h3] at h
        cases u with
        | nil => exact absurd rfl hun
        | cons d u =>
          simp at h
          obtain ⟨t', s2, rfl, h4, h5, h6⟩ := ih (fun e he => hu e (by simp [he])) (closed_of he hs) h.2 hr
          exact ⟨t1 ++ t', s2, by simp, ht1.append h4, h5, h6⟩
      | @char d s' hd hq hs' h3 he =>
        subst hx
        rw [h3] at h
        simp at h
        exact absurd hc' (h.1 ▸ hd)
  | @line b t hb _ _ =>
    intro u s r hu hs h hr
    exact (slash (d := '/') (.inl rfl) hu hs (r := b ++ '\n' :: (t ++ r)) (by simpa using h)).elim
  | @block b t hb _ _ =>
    intro u s r hu hs h hr
    exact (slash (d := '*') (.inr rfl) hu hs (r := b ++ '*' :: '/' :: (t ++ r)) (by simpa using h)).elim

theorem item_head {w : Str} (h : Item w) : ∃ c w', w = c :: w' ∧ c ∉ blanks := by
  have : w ≠ [] := item_ne_nil h
  cases w with
  | nil => exact absurd rfl this
  | cons c w =>
    refine ⟨c, w, rfl, ?_⟩
    rcases item_chars h with h | ⟨v, _, e⟩
    · exact (h c (by simp)).2
    · simp at e
      rw [e.1]
      decide

theorem items_head {ls : List Str} {s : Str} (h : Items ls s) : ∀ c, s.head? = some c → c ∉ blanks := by
  cases h with
  | nil => simp
  | cons hw _ _ _ =>
    obtain ⟨c, w, rfl, h⟩ := item_head hw
    rintro d ⟨⟩
    exact h

theorem items_back (hf : Blank f) {ls : List Str} {r : Str} (h : Items ls r) : ∀ {s : Str}, NoOpenComment s → relayout f .code s = r →
    Items ls s := by
  induction h with
  | nil =>
    intro s hs h
    have hv := view hf hs
    generalize hx : s = x at hv
    cases hv with
    | nil => exact .nil
    | quote s => subst hx; rw [relayout] at h; simp at h
    | white _ _ _ _ hun h3 => subst hx; rw [h3] at h; simp [hun] at h
    | char _ _ _ h3 => subst hx; rw [h3] at h; simp at h
  | @cons w ws t s0 hw ht h0 ha ih =>
    intro s hs h
    obtain ⟨s1, rfl, h1, h2⟩ := item_back hf hw hs h
    obtain ⟨t', s2, rfl, h3, h4, h5⟩ := trivia_back hf ht (u := []) (by simp) h2 h1 (items_head h0)
    refine .cons hw h3 (ih h5 h4) ((separate_relayout hf h2).1 ?_)
    rwa [h1]

theorem lexes_back (hf : Blank f) {ls : List Str} {s : Str} (hs : NoOpenComment s) (h : Lexes (relayout f .code s) ls) : Lexes s ls := by
  obtain ⟨t, b, h1, ht, hb⟩ := h
  obtain ⟨t', s2, rfl, h3, h4, h5⟩ := trivia_back hf ht (u := []) (by simp) hs h1 (items_head hb)
  exact ⟨t', s2, rfl, h3, items_back hf hb h5 h4⟩

end

/-! ## The shortest text -/

theorem items_all {ls : List Str} {s : Str} (h : Items ls s) : ∀ w ∈ ls, Item w := by
  induction h with
  | nil => simp
  | cons hw _ _ _ ih =>
    intro v hv
    rcases List.mem_cons.1 hv with rfl | hv
    · exact hw
    · exact ih v hv

theorem shortest_head {w : Str} (hw : w ≠ []) (ls : List Str) : (shortest (w :: ls)).head? = w.head? := by
  cases w with
  | nil => exact absurd rfl hw
  | cons c w => cases ls <;> rfl

theorem touch_false {v w : Str} : touch v w = false ↔ ∀ c d, v.getLast? = some c → w.head? = some d → NameChar c → ¬ NameChar d := by
  unfold touch
  cases v.getLast? with
  | none => simp
  | some c =>
    cases w.head? with
    | none => simp
    | some d => simp

theorem shortest_text {ls : List Str} (h : ∀ w ∈ ls, w ≠ []) : Text ls (shortest ls) := by
  induction ls with
  | nil => exact .nil
  | cons v ls ih =>
    cases ls with
    | nil =>
      have := Text.cons (w := v) .nil .nil (by intro c d _ h; simp at h)
      simpa [shortest] using this
    | cons w ls =>
      have ih := ih fun x hx => h x (by simp [hx])
      rw [shortest]
      by_cases ht : touch v w
      · rw [if_pos ht]
        refine .cons (.white (by decide) .nil) ih ?_
        intro c d _ h1 _
        simp at h1
        subst h1
        unfold NameChar
        decide
      · rw [if_neg ht]
        refine .cons .nil ih ?_
        rw [List.nil_append, Apart, shortest_head (h w (by simp))]
        exact touch_false.1 (by simpa using ht)

theorem shortest_le {ls : List Str} {s : Str} (h : Items ls s) : (shortest ls).length ≤ s.length := by
  induction h with
  | nil => exact Nat.le_refl _
  | @cons v ws t s hv ht hs ha ih =>
    cases ws with
    | nil => simp [shortest]
    | cons w ls =>
      have : (if touch v w then [' '] else []).length ≤ t.length := by
        split
        · cases t with
          | cons => simp
          | nil =>
            exfalso
            rename_i hT
            have : touch v w = false := by
              rw [touch_false]
              have h1 := ha.1
              cases hs with
              | cons hw =>
                obtain ⟨c, w', rfl, -⟩ := item_head hw
                exact h1
            simp [this] at hT
        · simp
      simp only [shortest, List.length_append]
      omega

end Verif
