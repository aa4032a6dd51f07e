import Verif.Spec.Repetition
import Verif.Proof.Loops

/-! # Repetition combinators against chains -/

namespace Verif
open Nom Spec

variable {σ α β : Type} [DecidableEq σ]

omit [DecidableEq σ] in
theorem consRes_ok {a : α} {x : Res σ (List α)} {r : List σ} {as : List α} :
    consRes a x = .ok r as ↔ ∃ as', x = .ok r as' ∧ as = a :: as' := by
  cases x with
  | ok r' as' => simp only [consRes, Res.ok.injEq]; grind
  | _ => simp [consRes]

theorem many0_ok_iff {p : P σ α} (hp : Suff p) {s r : List σ} {as : List α} :
    many0 p s = .ok r as ↔ Chain p s as r ∧ Fails p r := by
  constructor
  · intro h
    induction hn : s.length using Nat.strongRecOn generalizing s as with
    | ind n ih =>
      rw [many0_eq hp] at h
      cases e : p s with
      | ok m a =>
        rw [e] at h
        dsimp only at h
        split at h
        · cases h
        · next hne =>
          rw [consRes_ok] at h
          obtain ⟨as', h1, rfl⟩ := h
          obtain ⟨h2, h3⟩ := ih _ (hn ▸ suffix_ne_length (hp _ _ _ e) hne) h1 rfl
          exact ⟨.cons e hne h2, h3⟩
      | diverge => rw [e] at h; cases h
      | err e' =>
        rw [e] at h
        cases e' with
        | error q k => cases h; exact ⟨.nil, q, k, e⟩
        | _ => cases h
  · rintro ⟨h, hf⟩
    induction h with
    | nil =>
      obtain ⟨q, k, e⟩ := hf
      rw [many0_eq hp, e]
    | cons h hne _ ih =>
      rw [many0_eq hp, h]
      simp [hne, ih hf, consRes]

theorem sepTail_ok_iff {sep : P σ β} {p : P σ α} (hsep : Suff sep) (hp : Suff p)
    {s r : List σ} {as : List α} :
    sepTail sep p s = .ok r as ↔ SepChain sep p s as r ∧ Stops sep p r := by
  constructor
  · intro h
    induction hn : s.length using Nat.strongRecOn generalizing s as with
    | ind n ih =>
      rw [sepTail_eq hsep hp] at h
      cases e : sep s with
      | diverge => rw [e] at h; cases h
      | err e' =>
        rw [e] at h
        cases e' with
        | error q k => cases h; exact ⟨.nil, .inl ⟨q, k, e⟩⟩
        | _ => cases h
      | ok m b =>
        rw [e] at h
        dsimp only at h
        split at h
        · cases h
        · next hne =>
          have hlt := suffix_ne_length (hsep _ _ _ e) hne
          cases e2 : p m with
          | diverge => rw [e2] at h; cases h
          | err e' =>
            rw [e2] at h
            cases e' with
            | error q k => cases h; exact ⟨.nil, .inr ⟨m, b, e, hne, q, k, e2⟩⟩
            | _ => cases h
          | ok n a =>
            rw [e2] at h
            have hle := (hp _ _ _ e2).length_le
            have hne2 : n ≠ s := by rintro rfl; omega
            dsimp only at h
            rw [if_neg hne2, consRes_ok] at h
            obtain ⟨as', h, rfl⟩ := h
            obtain ⟨h1, h2⟩ := ih _ (by omega) h rfl
            exact ⟨.cons e hne e2 h1, h2⟩
  · rintro ⟨h, hf⟩
    induction h with
    | nil =>
      rw [sepTail_eq hsep hp]
      rcases hf with ⟨q, k, e⟩ | ⟨n, b, e, hne, q, k, e2⟩
      · rw [e]
      · simp [e, hne, e2]
    | @cons s m n r a b as hs hne h _ ih =>
      rw [sepTail_eq hsep hp]
      have hlt := suffix_ne_length (hsep _ _ _ hs) hne
      have hle := (hp _ _ _ h).length_le
      have hne2 : n ≠ s := by rintro rfl; omega
      simp [hs, hne, h, hne2, ih hf, consRes]

theorem separatedList_ok_iff {sep : P σ β} {p : P σ α} (hsep : Suff sep) (hp : Suff p)
    {s r : List σ} {as : List α} :
    separatedList sep p s = .ok r as ↔
      (as = [] ∧ r = s ∧ Fails p s) ∨
      ∃ a as' m, as = a :: as' ∧ p s = .ok m a ∧ m ≠ s ∧ SepChain sep p m as' r ∧
        Stops sep p r := by
  unfold separatedList
  have key := fun m as => sepTail_ok_iff (s := m) (r := r) (as := as) hsep hp
  unfold sepTail at key
  unfold Fails
  cases e : p s with
  | diverge => simp
  | err e' => cases e' <;> simp <;> grind
  | ok m a =>
    dsimp only
    split
    · next h => subst h; simp
    · next h =>
      rw [consRes_ok]
      simp only [key]
      constructor
      · rintro ⟨as', h1, rfl⟩; exact .inr ⟨a, as', m, rfl, rfl, h, h1⟩
      · rintro (⟨_, _, _, _, h⟩ | ⟨a', as', m', rfl, h1, h2, h3⟩)
        · cases h
        · cases h1; exact ⟨as', h3, rfl⟩

theorem separatedNonemptyList_ok_iff {sep : P σ β} {p : P σ α} (hsep : Suff sep) (hp : Suff p)
    {s r : List σ} {as : List α} :
    separatedNonemptyList sep p s = .ok r as ↔
      ∃ a as' m, as = a :: as' ∧ p s = .ok m a ∧ m ≠ s ∧ SepChain sep p m as' r ∧
        Stops sep p r := by
  unfold separatedNonemptyList
  have key := fun m as => sepTail_ok_iff (s := m) (r := r) (as := as) hsep hp
  unfold sepTail at key
  cases e : p s with
  | diverge => simp
  | err e' => simp
  | ok m a =>
    dsimp only
    split
    · next h => subst h; simp
    · next h =>
      rw [consRes_ok]
      simp only [key]
      constructor
      · rintro ⟨as', h1, rfl⟩; exact ⟨a, as', m, rfl, rfl, h, h1⟩
      · rintro ⟨a', as', m', rfl, h1, h2, h3⟩
        cases h1; exact ⟨as', h3, rfl⟩

end Verif
