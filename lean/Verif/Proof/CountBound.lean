import Verif.Proof.Count
import Verif.Proof.Text

/-! # How many looks: trivia -/

namespace Verif.Count
open Nom Spec

variable {α β : Type}

theorem compared_le (t i : Str) : compared t i ≤ t.length := by
  induction t generalizing i with
  | nil => simp [compared]
  | cons a t ih =>
    cases i with
    | nil => simp [compared]
    | cons b i =>
      simp only [compared, List.length_cons]
      split
      · have := ih i; omega
      · omega

theorem searched_some {t i a b : Str} (h : splitAtFirst t i = some (a, b)) : searched t i ≤ t.length * (a.length + 1) := by
  induction i generalizing a b with
  | nil =>
    simp only [splitAtFirst] at h
    split at h
    · simp at h
      obtain ⟨rfl, rfl⟩ := h
      simpa [searched] using compared_le t []
    · cases h
  | cons c i ih =>
    simp only [splitAtFirst] at h
    have h0 := compared_le t (c :: i)
    simp only [searched]
    split at h
    · next hp => simp at h; obtain ⟨rfl, rfl⟩ := h; simp [hp, h0]
    · next hp =>
      split at h
      · next a' b' h1 =>
        simp at h
        obtain ⟨rfl, rfl⟩ := h
        have := ih h1
        simp only [if_neg hp, List.length_cons]
        rw [Nat.mul_add, Nat.mul_one]
        omega
      · cases h

theorem searched_none {t i : Str} (h : splitAtFirst t i = none) : searched t i ≤ t.length * (i.length + 1) := by
  induction i with
  | nil => simpa [searched] using compared_le t []
  | cons c i ih =>
    simp only [splitAtFirst] at h
    have h0 := compared_le t (c :: i)
    simp only [searched]
    split at h
    · cases h
    · next hp =>
      split at h
      · cases h
      · next h1 =>
        have := ih h1
        simp only [if_neg hp, List.length_cons]
        rw [Nat.mul_add, Nat.mul_one]
        omega

theorem tag_snd (t i : Str) : (tag t i).2 = Nom.tag t i := rfl

theorem line_ok {i r : Str} (h : Verif.lineComment i = .ok r ()) : (lineComment i).1 + r.length ≤ i.length + 1 ∧ r.length + 3 ≤ i.length := by
  rcases tag_cases c!"//" i with ⟨q, rfl, h1⟩ | ⟨h1, h2⟩
  · rw [lineComment, seq_ok (a := c!"//") (r := q) h1]
    simp only [Verif.lineComment, Nom.seq, h1] at h
    cases e : splitAtFirst ['\n'] q with
    | none => simp [Nom.takeUntil, e] at h
    | some x =>
      obtain ⟨a, b⟩ := x
      obtain ⟨h3, ⟨b, rfl⟩, h4⟩ := splitAtFirst_some e
      have h5 : (takeUntil c!"\n" q).2 = .ok ('\n' :: b) a := by simp [takeUntil, Nom.takeUntil, e]
      have h6 := searched_some e
      rw [seq_ok h5, seq_ok (r := b) (a := '\n') (by simp [char, Nom.char])]
      simp [Nom.takeUntil, e, Nom.char, Nom.ret] at h
      subst h
      simp [tag, compared, takeUntil, char, ret, h3] at h6 ⊢
      omega
  · simp [Verif.lineComment, Nom.seq, h2] at h

theorem line_err {i p : Str} {k : ErrorKind} (h : Verif.lineComment i = .err (.error p k)) :
    (c!"//" <+: i ∧ (lineComment i).1 ≤ i.length + 1) ∨ (¬ c!"//" <+: i ∧ (lineComment i).1 ≤ 2) := by
  rcases tag_cases c!"//" i with ⟨q, rfl, h1⟩ | ⟨h1, h2⟩
  · refine .inl ⟨List.prefix_append _ _, ?_⟩
    rw [lineComment, seq_ok (a := c!"//") (r := q) h1]
    simp only [Verif.lineComment, Nom.seq, h1] at h
    cases e : splitAtFirst ['\n'] q with
    | none =>
      have h6 := searched_none e
      rw [seq_err (e := .error q .takeUntil) (by simp [takeUntil, Nom.takeUntil, e])]
      simp [tag, compared, takeUntil] at h6 ⊢
      omega
    | some x =>
      obtain ⟨a, b⟩ := x
      obtain ⟨h3, ⟨b, rfl⟩, h4⟩ := splitAtFirst_some e
      simp [Nom.takeUntil, e, Nom.char, Nom.ret] at h
  · refine .inr ⟨h1, ?_⟩
    rw [lineComment, seq_err (e := .error i .tag) h2]
    exact compared_le _ _

theorem block_ok {i r : Str} (h : Verif.blockComment i = .ok r ()) :
    (blockComment i).1 + 2 * r.length ≤ 2 * i.length ∧ r.length + 4 ≤ i.length ∧ c!"/*" <+: i := by
  rcases tag_cases c!"/*" i with ⟨q, rfl, h1⟩ | ⟨h1, h2⟩
  · rw [blockComment, seq_ok (a := c!"/*") (r := q) h1]
    simp only [Verif.blockComment, Nom.seq, h1] at h
    cases e : splitAtFirst ['*', '/'] q with
    | none => simp [Nom.takeUntil, e] at h
    | some x =>
      obtain ⟨a, b⟩ := x
      obtain ⟨h3, ⟨b, rfl⟩, h4⟩ := splitAtFirst_some e
      have h5 : (takeUntil c!"*/" q).2 = .ok (c!"*/" ++ b) a := by simp [takeUntil, Nom.takeUntil, e]
      have h6 := searched_some e
      have h7 := tag_append c!"*/" b
      rw [seq_ok h5, seq_ok (r := b) (a := c!"*/") h7]
      simp at h7
      simp [Nom.takeUntil, e, h7, Nom.ret] at h
      subst h
      simp [tag, compared, takeUntil, ret, h3] at h6 ⊢
      omega
  · simp [Verif.blockComment, Nom.seq, h2] at h

theorem block_err {i p : Str} {k : ErrorKind} (h : Verif.blockComment i = .err (.error p k)) :
    (c!"/*" <+: i ∧ (blockComment i).1 ≤ 2 * i.length) ∨ (¬ c!"/*" <+: i ∧ (blockComment i).1 ≤ 2) := by
  rcases tag_cases c!"/*" i with ⟨q, rfl, h1⟩ | ⟨h1, h2⟩
  · refine .inl ⟨List.prefix_append _ _, ?_⟩
    rw [blockComment, seq_ok (a := c!"/*") (r := q) h1]
    simp only [Verif.blockComment, Nom.seq, h1] at h
    cases e : splitAtFirst ['*', '/'] q with
    | none =>
      have h6 := searched_none e
      rw [seq_err (e := .error q .takeUntil) (by simp [takeUntil, Nom.takeUntil, e])]
      simp [tag, compared, takeUntil] at h6 ⊢
      omega
    | some x =>
      obtain ⟨a, b⟩ := x
      obtain ⟨h3, ⟨b, rfl⟩, h4⟩ := splitAtFirst_some e
      have h7 := tag_append c!"*/" b
      simp at h7
      simp [Nom.takeUntil, e, h7, Nom.ret] at h
  · refine .inr ⟨h1, ?_⟩
    rw [blockComment, seq_err (e := .error i .tag) h2]
    exact compared_le _ _

/-- One round of skipping trivia. -/
def stepC : C Unit := alt [lineComment, whitespace, blockComment]

theorem stepC_eq (i : Str) : (stepC i).1 = (lineComment i).1 +
    match Verif.lineComment i with
    | .err (.error _ _) => (whitespace i).1 +
      match Verif.whitespace i with
      | .err (.error _ _) => (blockComment i).1
      | _ => 0
    | _ => 0 := by
  simp only [stepC, alt, orElse, same_line i, same_white i, same_block i]
  repeat' split <;> simp_all [altEnd]

/-- A comment that does not end costs as much as what is left of the text. -/
def slash (r : Str) : Nat := if r.head? = some '/' then 3 * r.length else 0

theorem white_fst (i : Str) : (whitespace i).1 = (i.takeWhile isWs).length + 1 := by
  rw [whitespace, map_fst]; rfl

theorem takeWhile_add (f : Char → Bool) (i : Str) : (i.takeWhile f).length + (i.dropWhile f).length = i.length := by
  rw [← List.length_append, List.takeWhile_append_dropWhile]

theorem step_cost (i : Str) : (∃ r, step i = .ok r () ∧ r.length < i.length ∧ (stepC i).1 + 4 * r.length ≤ 4 * i.length) ∨
    (∃ p k, step i = .err (.error p k) ∧ (stepC i).1 ≤ 7 + slash i) := by
  rw [stepC_eq]
  rcases lineComment_cases i with ⟨_, r, -, -, h1⟩ | ⟨p, k, h1, -⟩
  · obtain ⟨h2, h3⟩ := line_ok h1
    refine .inl ⟨r, by simp [step, Nom.alt, Nom.orElse, h1], by omega, ?_⟩
    rw [h1]
    simp
    omega
  · have h2 := line_err h1
    rw [h1]
    simp only
    rcases whitespace_cases i with ⟨c, t, r, h3, h4, h5, h6⟩ | ⟨h3, h4⟩
    · have h7 : ¬ c!"//" <+: i := by
        rintro ⟨q, rfl⟩
        simp at h3
        have := h4 c (by simp)
        rw [← h3.1] at this
        exact absurd this (by decide)
      have h8 := h2.resolve_left fun h => h7 h.1
      have h9 := takeWhile_add isWs i
      rw [← h5] at h9
      have h10 : r.length < i.length := by rw [h3]; simp; omega
      refine .inl ⟨r, by simp [step, Nom.alt, Nom.orElse, h1, h6], h10, ?_⟩
      rw [h6, white_fst]
      simp only [Nat.add_zero]
      omega
    · have h5 : (whitespace i).1 = 1 := by
        rw [white_fst]
        cases i with
        | nil => rfl
        | cons c i => simp [h4 c i rfl]
      rw [h3, h5]
      simp only
      rcases blockComment_cases i with ⟨_, r, -, -, h6⟩ | ⟨p', k', h6, -⟩
      · have h10 : step i = .ok r () := by simp [step, Nom.alt, Nom.orElse, h1, h3, h6]
        obtain ⟨h7, h8, ⟨q, rfl⟩⟩ := block_ok h6
        have h9 := h2.resolve_left (by simp)
        refine .inl ⟨r, h10, by omega, ?_⟩
        omega
      · refine .inr ⟨i, .alt, by simp [step, Nom.alt, Nom.orElse, h1, h3, h6, Nom.altEnd], ?_⟩
        have h7 := block_err h6
        by_cases hi : i.head? = some '/'
        · rw [slash, if_pos hi]
          omega
        · have h8 : ¬ c!"//" <+: i := by rintro ⟨q, rfl⟩; simp at hi
          have h9 : ¬ c!"/*" <+: i := by rintro ⟨q, rfl⟩; simp at hi
          have := h2.resolve_left fun h => h8 h.1
          have := h7.resolve_left fun h => h9 h.1
          omega

/-- Skipping trivia is linear in what is skipped, except if a comment follows that does not end. -/
theorem sp_cost (i : Str) : (sp i).1 + 4 * (strip i).length ≤ 4 * i.length + 7 + slash (strip i) := by
  have h0 : (sp i).1 = (many0Loop stepC (i.length + 1) i).1 := by
    unfold sp recognize many0
    split <;> rfl
  rw [h0]
  clear h0
  have : ∀ n (i : Str), i.length < n → (many0Loop stepC n i).1 + 4 * (strip i).length ≤ 4 * i.length + 7 + slash (strip i) := by
    intro n
    induction n with
    | zero => intro i h; omega
    | succ n ih =>
      intro i hn
      have hs : (stepC i).2 = step i := same_step i
      rcases step_cost i with ⟨r, h1, h2, h3⟩ | ⟨p, k, h1, h2⟩
      · have h4 := ih r (by omega)
        rw [strip_of_step h1]
        simp only [many0Loop, hs, h1]
        rw [if_neg (by rintro rfl; omega)]
        dsimp only
        omega
      · rw [strip_eq, h1]
        simp only [many0Loop, hs, h1]
        omega
  exact this _ i (by omega)

end Verif.Count
