import Verif.Model.Parse

/-!
# Guarded grammar expressions

`Guarded c g st`: all recursive calls in `g` come after a consumed terminal (`c` says
that one was consumed before `g`); `st` says that `g` consumes something whenever it
succeeds.
-/

namespace Verif
open Nom

variable {σ α β : Type}

/-- A result for input `s`: success with a suffix of `s` (a strict one if `st`), or a
recoverable error at a suffix of `s`. -/
def Fine (st : Bool) (s : List σ) : Res σ α → Prop
  | .ok r _ => r <:+ s ∧ (st = true → r.length < s.length)
  | .err (.error pos _) => pos <:+ s
  | .err .incomplete => False
  | .err (.failure _ _) => False
  | .diverge => False

theorem Fine.weaken {st : Bool} {s : List σ} {r : Res σ α} (h : Fine st s r) :
    Fine false s r := by
  cases r with
  | ok r a => exact ⟨h.1, by simp⟩
  | err e => cases e <;> exact h
  | diverge => exact h

theorem Fine.mono {st : Bool} {s s' : List σ} {r : Res σ α} (h : Fine st s r)
    (hs : s <:+ s') : Fine st s' r := by
  cases r with
  | ok r a =>
    refine ⟨h.1.trans hs, fun e => ?_⟩
    have := h.2 e
    have := hs.length_le
    omega
  | err e =>
    cases e with
    | error p k => exact List.IsSuffix.trans h hs
    | incomplete => exact h
    | failure p k => exact h
  | diverge => exact h

theorem Fine.mono_strict {st : Bool} {s s' : List σ} {r : Res σ α} (h : Fine st s r)
    (hs : s <:+ s') (hlt : s.length < s'.length) : Fine true s' r := by
  cases r with
  | ok r a =>
    refine ⟨h.1.trans hs, fun e => ?_⟩
    have := h.1.length_le
    omega
  | err e =>
    cases e with
    | error p k => exact List.IsSuffix.trans h hs
    | incomplete => exact h
    | failure p k => exact h
  | diverge => exact h

/-- The case analysis of a fine result. -/
theorem Fine.cases {st : Bool} {s : List σ} {r : Res σ α} (h : Fine st s r) :
    (∃ i a, r = .ok i a ∧ i <:+ s ∧ (st = true → i.length < s.length)) ∨
    (∃ p k, r = .err (.error p k) ∧ p <:+ s) := by
  cases r with
  | ok r a => exact .inl ⟨r, a, rfl, h.1, h.2⟩
  | err e =>
    cases e with
    | error p k => exact .inr ⟨p, k, rfl, h⟩
    | incomplete => exact h.elim
    | failure p k => exact h.elim
  | diverge => exact h.elim

theorem fine_consRes {st : Bool} {s : List σ} {a : α} {r : Res σ (List α)} (h : Fine st s r) :
    Fine st s (consRes a r) := by
  rcases h.cases with ⟨i, as, rfl, h⟩ | ⟨p, k, rfl, h⟩ <;> exact h

class inductive Guarded : {α : Type} → Bool → G α → outParam Bool → Prop where
  | ret {α : Type} {c : Bool} {a : α} : Guarded c (.ret a) false
  | leaf {α : Type} {c : Bool} {l : Leaf α} : Guarded c (.leaf l) true
  | bindT {α β : Type} {c st' : Bool} {g : G α} {f : α → G β} :
      Guarded c g true → (∀ a, Guarded true (f a) st') → Guarded c (.bind g f) true
  | bindF {α β : Type} {c st' : Bool} {g : G α} {f : α → G β} :
      Guarded c g false → (∀ a, Guarded c (f a) st') → Guarded c (.bind g f) st'
  | orElse {α : Type} {c st : Bool} {g h : G α} :
      Guarded c g st → Guarded c h st → Guarded c (.orElse g h) st
  | altEnd {α : Type} {c st : Bool} : Guarded c (.altEnd : G α) st
  | opt {α : Type} {c st : Bool} {g : G α} : Guarded c g st → Guarded c (.opt g) false
  | many0 {α : Type} {c st : Bool} {g : G α} : Guarded c g st → Guarded c (.many0 g) false
  | separatedList {α β : Type} {c st st' : Bool} {sep : G β} {g : G α} :
      Guarded c g st → Guarded true sep st' → Guarded c (.separatedList sep g) false
  | separatedNonemptyList {α β : Type} {c st st' : Bool} {sep : G β} {g : G α} :
      Guarded c g st → Guarded true sep st' → Guarded c (.separatedNonemptyList sep g) true
  | call {α : Type} {n : NT α} : Guarded true (.call n) true
  | weaken {α : Type} {c : Bool} {g : G α} : Guarded c g true → Guarded c g false

/-! ## The meaning of the judgement -/

variable [DecidableEq σ]

/-- The inputs on which the recursive calls are known to behave. -/
def Inv (c : Bool) (k : Nat) (s : List σ) : Prop :=
  if c then s.length < k else s.length ≤ k

omit [DecidableEq σ] in
theorem Inv.mono {c : Bool} {k : Nat} {s s' : List σ} (h : Inv c k s)
    (hs : s'.length ≤ s.length) : Inv c k s' := by
  unfold Inv at *; split at h <;> simp_all <;> omega

omit [DecidableEq σ] in
theorem Inv.strict {c : Bool} {k : Nat} {s s' : List σ} (h : Inv c k s)
    (hs : s'.length < s.length) : Inv true k s' := by
  unfold Inv at *; split at h <;> simp_all <;> omega

omit [DecidableEq σ] in
theorem suffix_ne_length {r s : List σ} (h : r <:+ s) (hne : r ≠ s) : r.length < s.length := by
  rcases Nat.lt_or_ge r.length s.length with h' | h'
  · exact h'
  · exact absurd (h.eq_of_length_le h') hne

theorem many0Loop_fine {p p' : P σ α} {st : Bool} {n : Nat} {s : List σ}
    (hp : ∀ u, u.length ≤ s.length → Fine st u (p u) ∧ p' u = p u) (hn : s.length < n) :
    Fine false s (many0Loop p n s) ∧ many0Loop p' n s = many0Loop p n s := by
  induction n generalizing s with
  | zero => omega
  | succ n ih =>
    obtain ⟨h1, h2⟩ := hp s (Nat.le_refl _)
    simp only [many0Loop, h2]
    rcases h1.cases with ⟨i, a, e, hs, -⟩ | ⟨q, k, e, hs⟩ <;> rw [e] <;> dsimp only
    · split
      · exact ⟨List.suffix_refl _, rfl⟩
      · next hne =>
        have hlt := suffix_ne_length hs hne
        obtain ⟨h3, h4⟩ := ih (s := i) (fun u hu => hp u (by omega)) (by omega)
        exact ⟨fine_consRes (h3.mono hs), by rw [h4]⟩
    · exact ⟨⟨List.suffix_refl _, by simp⟩, rfl⟩

theorem sepLoop_fine {sep sep' : P σ β} {p p' : P σ α} {st st' : Bool} {n : Nat} {s : List σ}
    (hsep : ∀ u, u.length ≤ s.length → Fine st' u (sep u) ∧ sep' u = sep u)
    (hp : ∀ u, u.length ≤ s.length → Fine st u (p u) ∧ p' u = p u) (hn : s.length < n) :
    Fine false s (sepLoop sep p n s) ∧ sepLoop sep' p' n s = sepLoop sep p n s := by
  induction n generalizing s with
  | zero => omega
  | succ n ih =>
    obtain ⟨h1, h2⟩ := hsep s (Nat.le_refl _)
    simp only [sepLoop, h2]
    rcases h1.cases with ⟨i, a, e, hs, -⟩ | ⟨q, k, e, hs⟩ <;> rw [e] <;> dsimp only
    · split
      · exact ⟨hs, rfl⟩
      · next hne =>
        have hlt := suffix_ne_length hs hne
        obtain ⟨h1, h2⟩ := hp i (by omega)
        rw [h2]
        rcases h1.cases with ⟨i2, a, e, hs2, -⟩ | ⟨q, k, e, hs2⟩ <;> rw [e] <;> dsimp only
        · split
          · exact ⟨hs2.trans hs, rfl⟩
          · have hle := hs2.length_le
            obtain ⟨h3, h4⟩ := ih (s := i2) (fun u hu => hsep u (by omega))
              (fun u hu => hp u (by omega)) (by omega)
            exact ⟨fine_consRes (h3.mono (hs2.trans hs)), by rw [h4]⟩
        · exact ⟨⟨List.suffix_refl _, by simp⟩, rfl⟩
    · exact ⟨⟨List.suffix_refl _, by simp⟩, rfl⟩

/-- The meaning of `Guarded`: if the recursive calls behave on inputs shorter than `k`,
so does the expression on inputs of length at most `k`; and it cannot tell two families
of recursive parsers apart that agree on inputs shorter than `k`. -/
theorem Guarded.fine {leaf : ∀ α, Leaf α → P σ α} (hl : ∀ α l u, Fine true u (leaf α l u))
    {c st : Bool} {g : G α} (hg : Guarded c g st) :
    ∀ {nt nt' : ∀ α, NT α → P σ α} {k : Nat},
      (∀ α N u, u.length < k → Fine true u (nt α N u) ∧ nt' α N u = nt α N u) →
      ∀ s, Inv c k s → Fine st s (g.run leaf nt s) ∧ g.run leaf nt' s = g.run leaf nt s := by
  induction hg with
  | ret => intro nt nt' k hnt s hs; exact ⟨⟨List.suffix_refl _, by simp⟩, rfl⟩
  | leaf => intro nt nt' k hnt s hs; exact ⟨hl _ _ _, rfl⟩
  | @bindT α β c st' g f _ _ ih1 ih2 =>
    intro nt nt' k hnt s hs
    obtain ⟨h1, h2⟩ := ih1 hnt s hs
    simp only [G.run, Nom.seq, h2]
    rcases h1.cases with ⟨i, a, e, hi, hlt⟩ | ⟨q, k, e, hi⟩ <;> rw [e] <;> dsimp only
    · obtain ⟨h3, h4⟩ := ih2 a hnt i (hs.strict (hlt rfl))
      exact ⟨h3.mono_strict hi (hlt rfl), h4⟩
    · exact ⟨hi, rfl⟩
  | @bindF α β c st' g f _ _ ih1 ih2 =>
    intro nt nt' k hnt s hs
    obtain ⟨h1, h2⟩ := ih1 hnt s hs
    simp only [G.run, Nom.seq, h2]
    rcases h1.cases with ⟨i, a, e, hi, hlt⟩ | ⟨q, k, e, hi⟩ <;> rw [e] <;> dsimp only
    · obtain ⟨h3, h4⟩ := ih2 a hnt i (hs.mono hi.length_le)
      exact ⟨h3.mono hi, h4⟩
    · exact ⟨hi, rfl⟩
  | orElse _ _ ih1 ih2 =>
    intro nt nt' k hnt s hs
    obtain ⟨h1, h2⟩ := ih1 hnt s hs
    simp only [G.run, Nom.orElse, h2]
    rcases h1.cases with ⟨i, a, e, hi⟩ | ⟨q, k, e, hi⟩ <;> rw [e] <;> dsimp only
    · exact ⟨hi, rfl⟩
    · exact ih2 hnt s hs
  | altEnd => intro nt nt' k hnt s hs; exact ⟨List.suffix_refl _, rfl⟩
  | opt _ ih1 =>
    intro nt nt' k hnt s hs
    obtain ⟨h1, h2⟩ := ih1 hnt s hs
    simp only [G.run, Nom.opt, h2]
    rcases h1.cases with ⟨i, a, e, hi, _⟩ | ⟨q, k, e, hi⟩ <;> rw [e] <;> dsimp only
    · exact ⟨⟨hi, by simp⟩, trivial⟩
    · exact ⟨⟨List.suffix_refl _, by simp⟩, trivial⟩
  | many0 _ ih1 =>
    intro nt nt' k hnt s hs
    exact many0Loop_fine (fun u hu => ih1 hnt u (hs.mono hu)) (by omega)
  | separatedList _ _ ih1 ih2 =>
    intro nt nt' k hnt s hs
    obtain ⟨h1, h2⟩ := ih1 hnt s hs
    simp only [G.run, Nom.separatedList, h2]
    rcases h1.cases with ⟨i, a, e, hi, _⟩ | ⟨q, k, e, hi⟩ <;> rw [e] <;> dsimp only
    · split
      · exact ⟨hi, rfl⟩
      · next hne =>
        have hlt := suffix_ne_length hi hne
        obtain ⟨h3, h4⟩ := sepLoop_fine (n := i.length + 1) (s := i)
          (fun u hu => ih2 hnt u (hs.strict (by omega)))
          (fun u hu => ih1 hnt u (hs.mono (by omega))) (by omega)
        exact ⟨fine_consRes (h3.mono hi), by rw [h4]⟩
    · exact ⟨⟨List.suffix_refl _, by simp⟩, rfl⟩
  | separatedNonemptyList _ _ ih1 ih2 =>
    intro nt nt' k hnt s hs
    obtain ⟨h1, h2⟩ := ih1 hnt s hs
    simp only [G.run, Nom.separatedNonemptyList, h2]
    rcases h1.cases with ⟨i, a, e, hi, _⟩ | ⟨q, k, e, hi⟩ <;> rw [e] <;> dsimp only
    · split
      · exact ⟨hi, rfl⟩
      · next hne =>
        have hlt := suffix_ne_length hi hne
        obtain ⟨h3, h4⟩ := sepLoop_fine (n := i.length + 1) (s := i)
          (fun u hu => ih2 hnt u (hs.strict (by omega)))
          (fun u hu => ih1 hnt u (hs.mono (by omega))) (by omega)
        exact ⟨fine_consRes (h3.mono_strict hi hlt), by rw [h4]⟩
    · exact ⟨hi, rfl⟩
  | call => intro nt nt' k hnt s hs; exact hnt _ _ s (by simpa [Inv] using hs)
  | weaken _ ih1 =>
    intro nt nt' k hnt s hs
    exact ⟨(ih1 hnt s hs).1.weaken, (ih1 hnt s hs).2⟩

end Verif
