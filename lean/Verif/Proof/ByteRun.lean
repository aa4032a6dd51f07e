import Verif.Proof.Bytes

/-! # The run on bytes is the run on characters -/

namespace Verif
open Nom Spec

variable {α β γ δ : Type}

def mapUtf8 (f : α → β) : Res Char α → Res UInt8 β
  | .ok r a => .ok (utf8 r) (f a)
  | .err e => .err (errUtf8 e)
  | .diverge => .diverge

theorem mapUtf8_id (x : Res Char α) : mapUtf8 id x = resUtf8 x := by cases x <;> rfl

/-- The parsers return the same on a text and on its bytes. -/
def Agree (f : α → β) (p : P Char α) (q : P UInt8 β) : Prop :=
  ∀ s, q (utf8 s) = mapUtf8 f (p s) ∧ ∀ r a, p s = .ok r a → r <:+ s

theorem Agree.ret (f : α → β) (a : α) : Agree f (Nom.ret a) (Nom.ret (f a)) := fun s =>
  ⟨rfl, by simp [Nom.ret]⟩

theorem Agree.seq {f : α → β} {g : γ → δ} {p : P Char α} {q : P UInt8 β} {k : α → P Char γ} {k' : β → P UInt8 δ}
    (h : Agree f p q) (h' : ∀ a, Agree g (k a) (k' (f a))) : Agree g (Nom.seq p k) (Nom.seq q k') := by
  intro s
  obtain ⟨h1, h2⟩ := h s
  simp only [Nom.seq, h1]
  cases hp : p s with
  | ok r a =>
    obtain ⟨h3, h4⟩ := h' a r
    exact ⟨h3, fun r' b h => (h4 r' b h).trans (h2 r a hp)⟩
  | err e => exact ⟨rfl, by simp⟩
  | diverge => exact ⟨rfl, by simp⟩

theorem Agree.map {f : α → β} {g : γ → δ} {p : P Char α} {q : P UInt8 β} {k : α → γ} {k' : β → δ}
    (h : Agree f p q) (h' : ∀ a, k' (f a) = g (k a)) : Agree g (Nom.map k p) (Nom.map k' q) :=
  h.seq fun a => by rw [h']; exact .ret g _

theorem Agree.orElse {f : α → β} {p p' : P Char α} {q q' : P UInt8 β} (h : Agree f p q) (h' : Agree f p' q') :
    Agree f (Nom.orElse p p') (Nom.orElse q q') := by
  intro s
  obtain ⟨h1, h2⟩ := h s
  simp only [Nom.orElse, h1]
  cases hp : p s with
  | ok r a => exact ⟨rfl, fun r' b h => by cases h; exact h2 _ _ hp⟩
  | err e =>
    cases e with
    | error pos k => exact h' s
    | incomplete => exact ⟨rfl, by simp⟩
    | failure pos k => exact ⟨rfl, by simp⟩
  | diverge => exact ⟨rfl, by simp⟩

theorem Agree.altEnd {f : α → β} : Agree f Nom.altEnd Nom.altEnd := fun s => ⟨rfl, by simp [Nom.altEnd]⟩

theorem Agree.opt {f : α → β} {p : P Char α} {q : P UInt8 β} (h : Agree f p q) :
    Agree (Option.map f) (Nom.opt p) (Nom.opt q) := by
  intro s
  obtain ⟨h1, h2⟩ := h s
  simp only [Nom.opt, h1]
  cases hp : p s with
  | ok r a => exact ⟨rfl, fun r' b h => by cases h; exact h2 _ _ hp⟩
  | err e =>
    cases e with
    | error pos k => exact ⟨rfl, fun r' b h => by cases h; exact List.suffix_refl _⟩
    | incomplete => exact ⟨rfl, by simp⟩
    | failure pos k => exact ⟨rfl, by simp⟩
  | diverge => exact ⟨rfl, by simp⟩

theorem Agree.suff {f : α → β} {p : P Char α} {q : P UInt8 β} (h : Agree f p q) : Suff p := fun s => (h s).2

theorem mapUtf8_cons {f : α → β} {a : α} {x : Res Char (List α)} :
    consRes (f a) (mapUtf8 (List.map f) x) = mapUtf8 (List.map f) (consRes a x) := by
  cases x <;> rfl

theorem utf8_eq_iff {s t : Str} : utf8 s = utf8 t ↔ s = t := ⟨Byte.utf8_inj, fun h => h ▸ rfl⟩

theorem utf8_suffix_length {r s : Str} (h : r <:+ s) (hne : r ≠ s) : (utf8 r).length < (utf8 s).length := by
  obtain ⟨t, rfl⟩ := h
  cases t with
  | nil => exact absurd rfl hne
  | cons c t =>
    obtain ⟨x, xs, h1, -⟩ := Byte.enc_shape c
    rw [List.cons_append, utf8_cons, utf8_append, h1]
    simp; omega

theorem many0Loop_utf8 {f : α → β} {p : P Char α} {q : P UInt8 β} (h : Agree f p q) :
    ∀ (n m : Nat) (s : Str), s.length < n → (utf8 s).length < m →
      many0Loop q m (utf8 s) = mapUtf8 (List.map f) (many0Loop p n s) := by
  intro n
  induction n with
  | zero => intro m s hn; omega
  | succ n ih =>
    intro m s hn hm
    obtain ⟨m, rfl⟩ : ∃ k, m = k + 1 := ⟨m - 1, by omega⟩
    obtain ⟨h1, h2⟩ := h s
    simp only [many0Loop, h1]
    cases hp : p s with
    | ok r a =>
      simp only [mapUtf8, utf8_eq_iff]
      split
      · rfl
      · next hne =>
        have hs := h2 r a hp
        have l1 := suffix_ne_length hs hne
        have l2 := utf8_suffix_length hs hne
        rw [ih m r (by omega) (by omega), mapUtf8_cons]
        rfl
    | err e => cases e <;> rfl
    | diverge => rfl

theorem Agree.many0 {f : α → β} {p : P Char α} {q : P UInt8 β} (h : Agree f p q) :
    Agree (List.map f) (Nom.many0 p) (Nom.many0 q) := fun s =>
  ⟨many0Loop_utf8 h _ _ s (by omega) (by omega), fun _ _ hs => suff_many0Loop h.suff _ _ _ _ hs⟩

theorem sepLoop_utf8 {f : α → β} {g : γ → δ} {p : P Char α} {q : P UInt8 β} {sep : P Char γ} {sep' : P UInt8 δ}
    (h : Agree f p q) (h' : Agree g sep sep') :
    ∀ (n m : Nat) (s : Str), s.length < n → (utf8 s).length < m →
      sepLoop sep' q m (utf8 s) = mapUtf8 (List.map f) (sepLoop sep p n s) := by
  intro n
  induction n with
  | zero => intro m s hn; omega
  | succ n ih =>
    intro m s hn hm
    obtain ⟨m, rfl⟩ : ∃ k, m = k + 1 := ⟨m - 1, by omega⟩
    obtain ⟨h1, h2⟩ := h' s
    simp only [sepLoop, h1]
    cases hp : sep s with
    | ok r a =>
      simp only [mapUtf8, utf8_eq_iff]
      split
      · rfl
      · next hne =>
        have hs := h2 r a hp
        have l1 := suffix_ne_length hs hne
        have l2 := utf8_suffix_length hs hne
        obtain ⟨h3, h4⟩ := h r
        rw [h3]
        cases hp' : p r with
        | ok r2 a2 =>
          simp only [mapUtf8, utf8_eq_iff]
          split
          · rfl
          · next hne' =>
            have hs' := h4 r2 a2 hp'
            have l3 := hs'.length_le
            have l4 : (utf8 r2).length ≤ (utf8 r).length := by
              by_cases e : r2 = r
              · rw [e]; exact Nat.le_refl _
              · exact Nat.le_of_lt (utf8_suffix_length hs' e)
            rw [ih m r2 (by omega) (by omega), mapUtf8_cons]
            rfl
        | err e => cases e <;> rfl
        | diverge => rfl
    | err e => cases e <;> rfl
    | diverge => rfl

theorem Agree.separatedNonemptyList {f : α → β} {g : γ → δ} {p : P Char α} {q : P UInt8 β} {sep : P Char γ}
    {sep' : P UInt8 δ} (h' : Agree g sep sep') (h : Agree f p q) :
    Agree (List.map f) (Nom.separatedNonemptyList sep p) (Nom.separatedNonemptyList sep' q) := by
  intro s
  obtain ⟨h1, h2⟩ := h s
  simp only [Nom.separatedNonemptyList, h1]
  cases hp : p s with
  | ok r a =>
    simp only [mapUtf8, utf8_eq_iff]
    split
    · exact ⟨rfl, by simp⟩
    · refine ⟨?_, fun r' b hr => (suff_consRes (suff_sepLoop h'.suff h.suff _) hr).trans (h2 _ _ hp)⟩
      rw [sepLoop_utf8 h h' (r.length + 1) _ r (by omega) (by omega), mapUtf8_cons]
      rfl
  | err e => exact ⟨rfl, by simp⟩
  | diverge => exact ⟨rfl, by simp⟩

theorem Agree.separatedList {f : α → β} {g : γ → δ} {p : P Char α} {q : P UInt8 β} {sep : P Char γ}
    {sep' : P UInt8 δ} (h' : Agree g sep sep') (h : Agree f p q) :
    Agree (List.map f) (Nom.separatedList sep p) (Nom.separatedList sep' q) := by
  intro s
  obtain ⟨h1, h2⟩ := h s
  simp only [Nom.separatedList, h1]
  cases hp : p s with
  | ok r a =>
    simp only [mapUtf8, utf8_eq_iff]
    split
    · exact ⟨rfl, by simp⟩
    · refine ⟨?_, fun r' b hr => (suff_consRes (suff_sepLoop h'.suff h.suff _) hr).trans (h2 _ _ hp)⟩
      rw [sepLoop_utf8 h h' (r.length + 1) _ r (by omega) (by omega), mapUtf8_cons]
      rfl
  | err e =>
    cases e with
    | error pos k => exact ⟨rfl, fun r' b h => by cases h; exact List.suffix_refl _⟩
    | incomplete => exact ⟨rfl, by simp⟩
    | failure pos k => exact ⟨rfl, by simp⟩
  | diverge => exact ⟨rfl, by simp⟩

/-! ## Terminals -/

theorem Agree.recognize {f : α → β} {p : P Char α} {q : P UInt8 β} (h : Agree f p q) :
    Agree utf8 (Nom.recognize p) (Byte.recognize q) := by
  intro s
  obtain ⟨h1, h2⟩ := h s
  simp only [Nom.recognize, Byte.recognize, h1]
  cases hp : p s with
  | ok r a =>
    obtain ⟨w, rfl⟩ := h2 r a hp
    simp only [mapUtf8]
    have e : (utf8 (w ++ r)).length - (utf8 r).length = (utf8 w).length := by rw [utf8_append]; simp
    rw [e, Byte.takeSplit_utf8]
    refine ⟨by simp, fun r' b h => ?_⟩
    cases h
    exact List.suffix_append _ _
  | err e => exact ⟨rfl, by simp⟩
  | diverge => exact ⟨rfl, by simp⟩

theorem agree_tag {t : Str} {t' : Bytes} (ht : t' = utf8 t) : Agree utf8 (Nom.tag t) (Byte.tag t') := by
  subst ht
  intro s
  simp only [Nom.tag, Byte.tag, Byte.utf8_isPrefixOf]
  split
  · next h =>
    obtain ⟨r, rfl⟩ := List.isPrefixOf_iff_prefix.1 h
    rw [Byte.takeSplit_utf8, List.drop_left]
    refine ⟨rfl, fun r' b h => ?_⟩
    cases h
    exact List.suffix_append _ _
  · exact ⟨rfl, by simp⟩

theorem split_while (f : Char → Bool) (s : Str) : ∃ r, s.dropWhile f = r ∧ s = s.takeWhile f ++ r :=
  ⟨_, rfl, List.takeWhile_append_dropWhile.symm⟩

theorem takeSplit_while (f : Char → Bool) (s : Str) :
    Byte.takeSplit (utf8 (s.takeWhile f)).length (utf8 s) = .ok (utf8 (s.dropWhile f)) (utf8 (s.takeWhile f)) := by
  have := Byte.takeSplit_utf8 (s.takeWhile f) (s.dropWhile f)
  rwa [List.takeWhile_append_dropWhile] at this

theorem takeSplit_all (f : Char → Bool) (s : Str) (h : s.dropWhile f = []) :
    Byte.takeSplit (utf8 s).length (utf8 s) = .ok (utf8 (s.dropWhile f)) (utf8 (s.takeWhile f)) := by
  have h1 := takeSplit_while f s
  have h2 : s.takeWhile f = s := by
    have := List.takeWhile_append_dropWhile (p := f) (l := s)
    rwa [h, List.append_nil] at this
  rwa [h2] at h1 ⊢

theorem agree_takeWhile (f : Char → Bool) : Agree utf8 (Nom.takeWhile f) (Byte.takeWhile f) := by
  intro s
  refine ⟨?_, fun r a h => ?_⟩
  · simp only [Nom.takeWhile, Byte.takeWhile, Byte.find_utf8, Bool.not_not]
    by_cases h : s.dropWhile f = []
    · rw [if_pos h]
      exact takeSplit_all f s h
    · rw [if_neg h]
      exact takeSplit_while f s
  · simp only [Nom.takeWhile] at h
    cases h
    exact List.dropWhile_suffix _

theorem utf8_length_zero {s : Str} : (utf8 s).length = 0 ↔ s = [] := by
  constructor
  · intro h
    have := Byte.length_utf8 s
    exact List.length_eq_zero_iff.1 (by omega)
  · rintro rfl; rfl

theorem agree_takeWhile1 (f : Char → Bool) : Agree utf8 (Nom.takeWhile1 f) (Byte.takeWhile1 f) := by
  intro s
  refine ⟨?_, fun r a h => ?_⟩
  · simp only [Nom.takeWhile1, Byte.takeWhile1, Byte.find_utf8, Bool.not_not]
    have hh := takeSplit_while f s
    have ha := takeSplit_all f s
    have hs := List.takeWhile_append_dropWhile (p := f) (l := s)
    by_cases h : s.dropWhile f = []
    · rw [if_pos h]
      simp only [utf8_length_zero]
      rw [h, List.append_nil] at hs
      split
      · next e => subst e; rfl
      · next e =>
        rw [ha h, hs, h]
        cases s with
        | nil => exact absurd rfl e
        | cons c s => rfl
    · rw [if_neg h]
      split
      · next e =>
        simp only [Option.some.injEq] at e
        have := utf8_length_zero.1 e
        rw [this]
        rfl
      · next n e' e =>
        simp only [Option.some.injEq] at e
        rw [← e, hh]
        split
        · next e1 =>
          rw [e1] at e
          exact absurd (e ▸ rfl) e'
        · rfl
      · next e => simp at e
  · simp only [Nom.takeWhile1] at h
    split at h
    · cases h
    · cases h
      exact List.dropWhile_suffix _

theorem splitAtFirst_eq {t s a b : Str} (h : splitAtFirst t s = some (a, b)) : s = a ++ b := by
  induction s generalizing a b with
  | nil =>
    simp only [splitAtFirst] at h
    split at h
    · cases h; rfl
    · cases h
  | cons c s ih =>
    simp only [splitAtFirst] at h
    split at h
    · cases h; rfl
    · split at h
      · next a' b' e =>
        cases h
        rw [List.cons_append, ← ih e]
      · cases h

theorem agree_takeUntil {t : Str} {t' : Bytes} (h : t ≠ []) (ht : t' = utf8 t) :
    Agree utf8 (Nom.takeUntil t) (Byte.takeUntil t') := by
  subst ht
  intro s
  simp only [Nom.takeUntil, Byte.takeUntil, Byte.findSub_utf8 h]
  cases hs : splitAtFirst t s with
  | none => exact ⟨rfl, by simp⟩
  | some p =>
    obtain ⟨a, b⟩ := p
    obtain rfl := splitAtFirst_eq hs
    refine ⟨Byte.takeSplit_utf8 a b, fun r a' h => ?_⟩
    cases h
    exact List.suffix_append _ _

theorem takeSplit_char (c : Char) (s : Str) :
    Byte.takeSplit (Byte.lenUtf8 c) (utf8 (c :: s)) = .ok (utf8 s) (utf8 [c]) := by
  have := Byte.takeSplit_utf8 [c] s
  rw [show (utf8 [c]).length = Byte.lenUtf8 c by rw [Byte.lenUtf8_eq]; simp [utf8]] at this
  exact this

theorem agree_char (c : Char) : Agree id (Nom.char c) (Byte.char c) := by
  intro s
  cases s with
  | nil => exact ⟨rfl, by simp [Nom.char]⟩
  | cons x s =>
    simp only [Nom.char, Byte.char, Byte.nextChar_utf8]
    split
    · next h =>
      subst h
      simp only [Nom.seq, takeSplit_char]
      refine ⟨rfl, fun r a h => ?_⟩
      cases h
      exact List.suffix_cons _ _
    · exact ⟨rfl, by simp⟩

theorem agree_oneOf (cs : Str) : Agree id (Nom.oneOf cs) (Byte.oneOf cs) := by
  intro s
  cases s with
  | nil => exact ⟨rfl, by simp [Nom.oneOf]⟩
  | cons x s =>
    simp only [Nom.oneOf, Byte.oneOf, Byte.nextChar_utf8]
    split
    · next h =>
      simp only [Nom.seq, takeSplit_char]
      refine ⟨rfl, fun r a h => ?_⟩
      cases h
      exact List.suffix_cons _ _
    · exact ⟨rfl, by simp⟩

end Verif
