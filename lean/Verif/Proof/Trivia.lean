import Verif.Spec.Lexical
import Verif.Proof.Loops
import Verif.Model.Lex

/-! # The white space skipper -/

namespace Verif
open Nom Spec

/-! ## Character-level parsers -/

theorem tag_append (t r : Str) : tag t (t ++ r) = .ok r t := by
  simp [tag, List.isPrefixOf_iff_prefix]

theorem tag_err {t s : Str} (h : ¬ t <+: s) : tag t s = .err (.error s .tag) := by
  simp [tag, List.isPrefixOf_iff_prefix, h]

theorem tag_cases (t s : Str) :
    (∃ r, s = t ++ r ∧ tag t s = .ok r t) ∨ (¬ t <+: s ∧ tag t s = .err (.error s .tag)) := by
  by_cases h : t <+: s
  · obtain ⟨r, rfl⟩ := h
    exact .inl ⟨r, rfl, tag_append t r⟩
  · exact .inr ⟨h, tag_err h⟩

theorem splitAtFirst_some {t : Str} : ∀ {s a b : Str}, splitAtFirst t s = some (a, b) →
    s = a ++ b ∧ t <+: b ∧ ∀ a' b', s = a' ++ b' → t <+: b' → a.length ≤ a'.length
  | [], a, b, h => by
    simp only [splitAtFirst] at h
    split at h
    · next h' => simp at h; obtain ⟨rfl, rfl⟩ := h; simpa [List.isPrefixOf_iff_prefix] using h'
    · cases h
  | c :: cs, a, b, h => by
    simp only [splitAtFirst] at h
    split at h
    · next h' =>
      simp at h; obtain ⟨rfl, rfl⟩ := h
      exact ⟨rfl, by simpa [List.isPrefixOf_iff_prefix] using h', by simp⟩
    · next h' =>
      split at h
      · next a' b' e =>
        simp at h; obtain ⟨rfl, rfl⟩ := h
        obtain ⟨h1, h2, h3⟩ := splitAtFirst_some e
        refine ⟨by simp [h1], h2, ?_⟩
        intro x y hxy ht
        cases x with
        | nil => simp at hxy; subst hxy; simp [List.isPrefixOf_iff_prefix, ht] at h'
        | cons d x =>
          simp at hxy
          have := h3 x y hxy.2 ht
          simp; omega
      · cases h

theorem splitAtFirst_none {t : Str} : ∀ {s : Str}, splitAtFirst t s = none →
    ∀ a b, s = a ++ b → ¬ t <+: b
  | [], h, a, b, e => by
    simp only [splitAtFirst] at h
    split at h
    · cases h
    · next h' =>
      simp at e; obtain ⟨rfl, rfl⟩ := e
      simpa [List.isPrefixOf_iff_prefix] using h'
  | c :: cs, h, a, b, e => by
    simp only [splitAtFirst] at h
    split at h
    · cases h
    · next h' =>
      split at h
      · cases h
      · next e' =>
        cases a with
        | nil => simp at e; subst e; simpa [List.isPrefixOf_iff_prefix] using h'
        | cons d a => simp at e; exact splitAtFirst_none e' a b e.2

theorem splitAtFirst_first {t a b : Str} (hb : t <+: b)
    (h : ∀ a' b', a ++ b = a' ++ b' → t <+: b' → a.length ≤ a'.length) :
    splitAtFirst t (a ++ b) = some (a, b) := by
  cases e : splitAtFirst t (a ++ b) with
  | none => exact absurd hb (splitAtFirst_none e a b rfl)
  | some x =>
    obtain ⟨a', b'⟩ := x
    obtain ⟨h1, h2, h3⟩ := splitAtFirst_some e
    have h4 := h a' b' h1 h2
    have h5 := h3 a b rfl hb
    obtain ⟨rfl, rfl⟩ := List.append_inj h1 (by omega)
    rfl

theorem mem_takeWhile_imp {p : Char → Bool} {x : Char} {l : Str} (h : x ∈ l.takeWhile p) :
    p x = true := by
  induction l with
  | nil => simp at h
  | cons a l ih =>
    by_cases ha : p a
    · simp [ha] at h; rcases h with rfl | h
      · exact ha
      · exact ih h
    · simp [ha] at h

/-! ## One piece of trivia -/

/-- One iteration of `sp`. -/
def step : P Char Unit := alt [lineComment, whitespace, blockComment]

theorem isWs_iff (c : Char) : isWs c = true ↔ c ∈ [' ', '\t', '\n', '\r'] := by
  simp [isWs]; grind

theorem lineComment_eq {body s : Str} (hb : '\n' ∉ body) :
    lineComment (c!"//" ++ body ++ c!"\n" ++ s) = .ok s () := by
  have e : splitAtFirst ['\n'] (body ++ '\n' :: s) = some (body, '\n' :: s) := by
    refine splitAtFirst_first (by simp) fun a' b' e hp => ?_
    obtain ⟨r, rfl⟩ := hp
    rcases List.append_eq_append_iff.1 e with ⟨l, rfl, h⟩ | ⟨l, rfl, h⟩
    · simp
    · cases l with
      | nil => simp
      | cons d l => simp at h; obtain ⟨rfl, -⟩ := h; simp at hb
  have := tag_append c!"//" (body ++ '\n' :: s)
  simp [lineComment, Nom.seq, Nom.ret, takeUntil, Nom.char] at this ⊢
  simp [this, e]

theorem blockComment_eq {body s : Str} (hb : ¬ c!"*/" <:+: body) :
    blockComment (c!"/*" ++ body ++ c!"*/" ++ s) = .ok s () := by
  have e : splitAtFirst ['*', '/'] (body ++ '*' :: '/' :: s) = some (body, '*' :: '/' :: s) := by
    refine splitAtFirst_first (by simp) fun a' b' e hp => ?_
    obtain ⟨r, rfl⟩ := hp
    rcases List.append_eq_append_iff.1 e with ⟨l, rfl, h⟩ | ⟨l, rfl, h⟩
    · simp
    · match l, h with
      | [], h => simp
      | [d], h => simp at h
      | d :: d' :: l, h =>
        simp at h
        obtain ⟨rfl, rfl, -⟩ := h
        exact absurd ⟨a', l, by simp⟩ hb
  have h1 := tag_append c!"/*" (body ++ '*' :: '/' :: s)
  have h2 := tag_append c!"*/" s
  simp [blockComment, Nom.seq, Nom.ret, takeUntil] at h1 h2 ⊢
  simp [h1, h2, e]

theorem lineComment_err {s : Str} (h : ¬ c!"//" <+: s) :
    lineComment s = .err (.error s .tag) := by
  simp [lineComment, Nom.seq, tag_err h]

theorem lineComment_cases (s : Str) :
    (∃ body r, '\n' ∉ body ∧ s = c!"//" ++ body ++ c!"\n" ++ r ∧ lineComment s = .ok r ()) ∨
    (∃ p k, lineComment s = .err (.error p k) ∧ p <:+ s) := by
  rcases tag_cases c!"//" s with ⟨r, rfl, h⟩ | ⟨h1, h2⟩
  · rw [List.cons_append, List.cons_append, List.nil_append] at h
    cases e : splitAtFirst ['\n'] r with
    | none =>
      refine .inr ⟨r, .takeUntil, ?_, ?_⟩
      · simp [lineComment, Nom.seq, h, takeUntil, e]
      · exact List.suffix_append _ _
    | some x =>
      obtain ⟨a, b⟩ := x
      obtain ⟨h3, ⟨b, rfl⟩, h4⟩ := splitAtFirst_some e
      refine .inl ⟨a, b, ?_, by simp [h3], ?_⟩
      · intro hmem
        obtain ⟨x, y, rfl⟩ := List.append_of_mem hmem
        have := h4 x ('\n' :: y ++ ['\n'] ++ b) (by simp [h3]) (by simp)
        simp at this
        omega
      · simp [lineComment, Nom.seq, h, takeUntil, e, Nom.char, Nom.ret]
  · exact .inr ⟨s, .tag, lineComment_err h1, List.suffix_refl _⟩

theorem blockComment_cases (s : Str) :
    (∃ body r, ¬ c!"*/" <:+: body ∧ s = c!"/*" ++ body ++ c!"*/" ++ r ∧
      blockComment s = .ok r ()) ∨
    (∃ p k, blockComment s = .err (.error p k) ∧ p <:+ s) := by
  rcases tag_cases c!"/*" s with ⟨r, rfl, h⟩ | ⟨h1, h2⟩
  · rw [List.cons_append, List.cons_append, List.nil_append] at h
    cases e : splitAtFirst ['*', '/'] r with
    | none =>
      refine .inr ⟨r, .takeUntil, ?_, ?_⟩
      · simp [blockComment, Nom.seq, h, takeUntil, e]
      · exact List.suffix_append _ _
    | some x =>
      obtain ⟨a, b⟩ := x
      obtain ⟨h3, ⟨b, rfl⟩, h4⟩ := splitAtFirst_some e
      refine .inl ⟨a, b, ?_, by simp [h3], ?_⟩
      · rintro ⟨x, y, rfl⟩
        have := h4 x (c!"*/" ++ y ++ c!"*/" ++ b) (by simp [h3]) (by simp)
        simp at this
        omega
      · have h2 := tag_append c!"*/" b
        simp at h2
        simp [blockComment, Nom.seq, h, takeUntil, e, h2, Nom.ret]
  · exact .inr ⟨s, .tag, by simp [blockComment, Nom.seq, h2], List.suffix_refl _⟩

theorem whitespace_cases (s : Str) :
    (∃ c t r, s = c :: t ++ r ∧ (∀ x ∈ c :: t, isWs x = true) ∧ r = s.dropWhile isWs ∧
      whitespace s = .ok r ()) ∨
    (whitespace s = .err (.error s .takeWhile1) ∧ ∀ c r, s = c :: r → isWs c = false) := by
  cases s with
  | nil => exact .inr ⟨rfl, by simp⟩
  | cons c s =>
    by_cases h : isWs c
    · refine .inl ⟨c, s.takeWhile isWs, s.dropWhile isWs, ?_, ?_, ?_, ?_⟩
      · simp
      · intro x hx
        simp at hx
        rcases hx with rfl | hx
        · exact h
        · exact mem_takeWhile_imp hx
      · simp [h]
      · simp [whitespace, Nom.map, Nom.seq, takeWhile1, h, Nom.ret]
    · refine .inr ⟨?_, ?_⟩
      · simp [whitespace, Nom.map, Nom.seq, takeWhile1, h]
      · rintro c' r e
        simp at e
        obtain ⟨rfl, rfl⟩ := e
        simpa using h

theorem trivia_whites {t : Str} (h : ∀ x ∈ t, isWs x = true) : Trivia t := by
  induction t with
  | nil => exact .nil
  | cons c t ih =>
    refine .white ((isWs_iff c).1 (h c (by simp))) (ih fun x hx => h x (by simp [hx]))

theorem step_cases (s : Str) :
    (∃ t r, t ≠ [] ∧ Trivia t ∧ s = t ++ r ∧ step s = .ok r ()) ∨
    (step s = .err (.error s .alt) ∧ ∃ p k, lineComment s = .err (.error p k) ∧
      (∀ c r, s = c :: r → isWs c = false) ∧ ∃ p k, blockComment s = .err (.error p k)) := by
  rcases lineComment_cases s with ⟨body, r, h1, h2, h3⟩ | ⟨p, k, h1, h2⟩
  · refine .inl ⟨c!"//" ++ body ++ c!"\n", r, by simp, ?_, by simp [h2], ?_⟩
    · simpa using Trivia.line h1 .nil
    · simp [step, alt, Nom.orElse, h3]
  · rcases whitespace_cases s with ⟨c, t, r, h3, h4, h5, h6⟩ | ⟨h3, h4⟩
    · refine .inl ⟨c :: t, r, by simp, trivia_whites h4, h3, ?_⟩
      simp [step, alt, Nom.orElse, h1, h6]
    · rcases blockComment_cases s with ⟨body, r, h5, h6, h7⟩ | ⟨p', k', h5, h6⟩
      · refine .inl ⟨c!"/*" ++ body ++ c!"*/", r, by simp, ?_, by simp [h6], ?_⟩
        · simpa using Trivia.block h5 .nil
        · simp [step, alt, Nom.orElse, h1, h3, h7]
      · refine .inr ⟨?_, p, k, h1, h4, p', k', h5⟩
        simp [step, alt, Nom.orElse, h1, h3, h5, altEnd]

theorem step_fine (s : Str) : Fine true s (step s) := by
  rcases step_cases s with ⟨t, r, h1, h2, rfl, h4⟩ | ⟨h1, -⟩
  · rw [h4]
    refine ⟨List.suffix_append _ _, fun _ => ?_⟩
    have := List.length_pos_iff.2 h1
    simp; omega
  · rw [h1]; exact List.suffix_refl _

/-- What `sp` leaves. -/
def strip (s : Str) : Str :=
  match many0 step s with
  | .ok r _ => r
  | _ => s

theorem many0_step (s : Str) : ∃ l, many0 step s = .ok (strip s) l := by
  have := many0Loop_fine (p := step) (p' := step) (st := true) (n := s.length + 1) (s := s)
    (fun u _ => ⟨step_fine u, rfl⟩) (by omega)
  have suff := suff_of_fine step_fine
  -- no error: `step` always consumes
  suffices ∃ r l, many0 step s = .ok r l by
    obtain ⟨r, l, h⟩ := this; exact ⟨l, by simp [strip, h]⟩
  clear this
  induction hn : s.length using Nat.strongRecOn generalizing s with
  | ind n ih =>
    rw [many0_eq suff]
    have h := step_fine s
    rcases h.cases with ⟨i, a, e, hi, hlt⟩ | ⟨q, k, e, hi⟩ <;> rw [e] <;> dsimp only
    · have hlt := hlt rfl
      rw [if_neg (by rintro rfl; omega)]
      obtain ⟨r, l, h⟩ := ih i.length (by omega) i rfl
      exact ⟨r, a :: l, by simp [h, consRes]⟩
    · exact ⟨s, [], rfl⟩

theorem strip_eq (s : Str) : strip s = match step s with
    | .ok r _ => strip r
    | _ => s := by
  obtain ⟨l, h⟩ := many0_step s
  rw [many0_eq (suff_of_fine step_fine)] at h
  rcases (step_fine s).cases with ⟨i, a, e, hi, hlt⟩ | ⟨q, k, e, hi⟩ <;> rw [e] at h ⊢ <;>
    dsimp only at h ⊢
  · have hlt := hlt rfl
    rw [if_neg (by rintro rfl; omega)] at h
    obtain ⟨l', h'⟩ := many0_step i
    rw [h'] at h
    simp [consRes] at h
    exact h.1.symm
  · simp at h; exact h.1.symm

theorem strip_of_step {s r : Str} (h : step s = .ok r ()) : strip s = strip r := by
  rw [strip_eq, h]

theorem strip_ws {c : Char} {s : Str} (h : isWs c = true) : strip (c :: s) = strip s := by
  have hd : ∀ (c : Char) (s : Str), isWs c = true →
      strip (c :: s) = strip ((c :: s).dropWhile isWs) := by
    intro c s h
    refine strip_of_step ?_
    have hl : lineComment (c :: s) = .err (.error (c :: s) .tag) := by
      refine lineComment_err fun hp => ?_
      obtain ⟨r, hr⟩ := hp
      simp at hr
      rw [← hr.1] at h; exact absurd h (by decide)
    rcases whitespace_cases (c :: s) with ⟨_, t, r, -, -, h5, h6⟩ | ⟨h3, h4⟩
    · simp [step, alt, Nom.orElse, hl, h6, h5]
    · simp [h4 c s rfl] at h
  rw [hd c s h]
  cases s with
  | nil => simp [h]
  | cons d s =>
    by_cases h' : isWs d
    · rw [hd d s h']; simp [h, h']
    · simp [h, h']

theorem strip_trivia {t : Str} (ht : Trivia t) (s : Str) : strip (t ++ s) = strip s := by
  induction ht with
  | nil => rfl
  | @white c t hc _ ih => rw [List.cons_append, strip_ws ((isWs_iff c).2 hc), ih]
  | @line body t hb _ ih =>
    rw [← ih]
    refine strip_of_step ?_
    have := lineComment_eq (s := t ++ s) hb
    simp at this ⊢
    simp [step, alt, Nom.orElse, this]
  | @block body t hb _ ih =>
    rw [← ih]
    refine strip_of_step ?_
    have h1 := blockComment_eq (s := t ++ s) hb
    have h2 : lineComment (c!"/*" ++ body ++ c!"*/" ++ (t ++ s)) = .err (.error _ .tag) :=
      lineComment_err (by simp)
    have h3 : whitespace (c!"/*" ++ body ++ c!"*/" ++ (t ++ s)) =
        .err (.error (c!"/*" ++ body ++ c!"*/" ++ (t ++ s)) .takeWhile1) := by
      rfl
    simp at h1 h2 h3 ⊢
    simp [step, alt, Nom.orElse, h1, h2, h3]

theorem noTrivia_of_step_err {s : Str} (h : ∃ p k, step s = .err (.error p k)) :
    NoTrivia s := by
  obtain ⟨p, k, h⟩ := h
  have hs : strip s = s := by rw [strip_eq, h]
  intro t r e ht
  subst e
  have h1 := strip_trivia ht r
  rw [hs] at h1
  have h2 : (strip r).length ≤ r.length := by
    obtain ⟨l, h'⟩ := many0_step r
    have := (many0Loop_fine (p := step) (p' := step) (st := true) (n := r.length + 1) (s := r)
      (fun u _ => ⟨step_fine u, rfl⟩) (by omega)).1
    unfold many0 at h'
    rw [h'] at this
    exact this.1.length_le
  rw [← h1] at h2
  rw [List.length_append] at h2
  exact List.eq_nil_of_length_eq_zero (by omega)

/-- `strip` is the specified skipper. -/
theorem skips_strip (s : Str) : Skips s (strip s) := by
  induction hn : s.length using Nat.strongRecOn generalizing s with
  | ind n ih =>
    rw [strip_eq]
    rcases step_cases s with ⟨t, r, h1, h2, h3, h4⟩ | ⟨h1, -⟩
    · have := List.length_pos_iff.2 h1
      obtain ⟨t', h5, h6, h7⟩ := ih r.length (by simp [← hn, h3]; omega) r rfl
      rw [h4]
      refine ⟨t ++ t', by simp [h3]; exact h5, ?_, h7⟩
      clear h1 h3 h4 h5 h7 this
      induction h2 with
      | nil => exact h6
      | white hc _ ih => exact .white hc ih
      | line hb _ ih => simpa using Trivia.line hb ih
      | block hb _ ih => simpa using Trivia.block hb ih
    · rw [h1]
      exact ⟨[], rfl, .nil, noTrivia_of_step_err ⟨_, _, h1⟩⟩

theorem strip_of_noTrivia {s : Str} (h : NoTrivia s) : strip s = s := by
  obtain ⟨t, h1, h2, -⟩ := skips_strip s
  have := h t (strip s) h1 h2
  subst this
  simpa using h1.symm

theorem strip_strip (s : Str) : strip (strip s) = strip s := by
  obtain ⟨t, h1, h2, h3⟩ := skips_strip s
  exact strip_of_noTrivia h3

theorem skips_iff {s r : Str} : Skips s r ↔ r = strip s := by
  constructor
  · rintro ⟨t, rfl, h2, h3⟩
    rw [strip_trivia h2, strip_of_noTrivia h3]
  · rintro rfl; exact skips_strip s

theorem noTrivia_iff {s : Str} : NoTrivia s ↔ strip s = s := by
  refine ⟨strip_of_noTrivia, fun h => ?_⟩
  obtain ⟨t, h1, h2, h3⟩ := skips_strip s
  rwa [h] at h3

theorem strip_suffix (s : Str) : strip s <:+ s := by
  obtain ⟨t, h1, -⟩ := skips_strip s
  exact ⟨t, h1.symm⟩

theorem strip_trivia_nil {t : Str} (ht : Trivia t) : strip t = [] := by
  have := strip_trivia ht []
  rw [List.append_nil] at this
  rw [this]
  exact List.suffix_nil.1 (strip_suffix [])

theorem sp_eq (s : Str) : sp s = .ok (strip s) (s.take (s.length - (strip s).length)) := by
  obtain ⟨l, h⟩ := many0_step s
  simp only [step] at h
  simp [sp, recognize, h]

/-- `ws!(p)` in terms of `strip`. -/
theorem ws_eq {α : Type} (p : P Char α) (s : Str) : ws p s = match p (strip s) with
    | .ok r a => .ok (strip r) a
    | .err e => .err e
    | .diverge => .diverge := by
  simp only [ws, Nom.seq, sp_eq, Nom.ret]
  cases p (strip s) <;> rfl

end Verif
