import Verif.Proof.Guarded

/-! # Unfolding equations for the repetition combinators -/

namespace Verif
open Nom

variable {σ α β : Type} [DecidableEq σ]

/-- The remainder of a success is a suffix of the input. -/
def Suff (p : P σ α) : Prop := ∀ s r a, p s = .ok r a → r <:+ s

omit [DecidableEq σ] in
theorem suff_of_fine {st : Bool} {p : P σ α} (h : ∀ s, Fine st s (p s)) : Suff p := by
  intro s r a e
  have := h s
  rw [e] at this
  exact this.1

theorem many0Loop_fuel {p : P σ α} (hp : Suff p) {n m : Nat} {s : List σ}
    (hn : s.length < n) (hm : s.length < m) : many0Loop p n s = many0Loop p m s := by
  induction n generalizing m s with
  | zero => omega
  | succ n ih =>
    obtain ⟨m, rfl⟩ : ∃ k, m = k + 1 := ⟨m - 1, by omega⟩
    simp only [many0Loop]
    split <;> try rfl
    next i a e =>
    split
    · rfl
    · next hne =>
      have hlt := suffix_ne_length (hp _ _ _ e) hne
      rw [ih (s := i) (m := m) (by omega) (by omega)]

/-- `many0` without the iteration bound. -/
theorem many0_eq {p : P σ α} (hp : Suff p) (s : List σ) :
    many0 p s = match p s with
      | .err (.error _ _) => .ok s []
      | .err e => .err e
      | .diverge => .diverge
      | .ok i a => if i = s then .err (.error s .many0) else consRes a (many0 p i) := by
  unfold many0
  rw [many0Loop]
  cases h : p s with
  | err e => cases e <;> rfl
  | diverge => rfl
  | ok i a =>
    dsimp only
    split
    · rfl
    · next hne =>
      have hlt := suffix_ne_length (hp _ _ _ h) hne
      rw [many0Loop_fuel hp (m := i.length + 1) (by omega) (by omega)]

theorem sepLoop_fuel {sep : P σ β} {p : P σ α} (hsep : Suff sep) (hp : Suff p)
    {n m : Nat} {s : List σ} (hn : s.length < n) (hm : s.length < m) :
    sepLoop sep p n s = sepLoop sep p m s := by
  induction n generalizing m s with
  | zero => omega
  | succ n ih =>
    obtain ⟨m, rfl⟩ : ∃ k, m = k + 1 := ⟨m - 1, by omega⟩
    simp only [sepLoop]
    split <;> try rfl
    next i b e =>
    split <;> try rfl
    next hne =>
    split <;> try rfl
    next i2 a e2 =>
    split <;> try rfl
    have hlt := suffix_ne_length (hsep _ _ _ e) hne
    have hle := (hp _ _ _ e2).length_le
    rw [ih (s := i2) (m := m) (by omega) (by omega)]

/-- The tail of a separated list, without the iteration bound. -/
def sepTail (sep : P σ β) (p : P σ α) : P σ (List α) := fun i =>
  sepLoop sep p (i.length + 1) i

theorem sepTail_eq {sep : P σ β} {p : P σ α} (hsep : Suff sep) (hp : Suff p) (s : List σ) :
    sepTail sep p s = match sep s with
      | .err (.error _ _) => .ok s []
      | .err e => .err e
      | .diverge => .diverge
      | .ok i1 _ =>
        if i1 = s then .err (.error i1 .separatedList) else
        match p i1 with
        | .err (.error _ _) => .ok s []
        | .err e => .err e
        | .diverge => .diverge
        | .ok i2 a =>
          if i2 = s then .err (.error i2 .separatedList)
          else consRes a (sepTail sep p i2) := by
  unfold sepTail
  rw [sepLoop]
  cases h : sep s with
  | err e => cases e <;> rfl
  | diverge => rfl
  | ok i b =>
    dsimp only
    split
    · rfl
    · next hne =>
      cases h2 : p i with
      | err e => cases e <;> rfl
      | diverge => rfl
      | ok i2 a =>
        dsimp only
        split
        · rfl
        · have hlt := suffix_ne_length (hsep _ _ _ h) hne
          have hle := (hp _ _ _ h2).length_le
          rw [sepLoop_fuel hsep hp (m := i2.length + 1) (by omega) (by omega)]

end Verif
