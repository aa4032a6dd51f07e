import Verif.Spec.Errors
import Verif.Proof.Knot
import Verif.Proof.Leaf
import Verif.Proof.Definitions

/-!
# Errors
-/

namespace Verif
open Nom Spec

theorem err_iff {σ : Type} {u : List σ} {k : ErrorKind} {e : Err σ} : Err.error u k = e ↔ e = .error u k :=
  ⟨Eq.symm, Eq.symm⟩

theorem ws_err {α : Type} {p : P Char α} {s r : Str} (hr : Skips s r) {e : Err Char} : ws p s = .err e ↔ p r = .err e := by
  rw [ws_eq, skips_iff.1 hr]
  cases p (strip s) <;> simp

theorem without_opt {c : Char} {r u : Str} (h : Without c r u) : ∃ o, opt (char c) r = .ok u o := by
  rcases h with rfl | ⟨rfl, h⟩
  · exact ⟨some c, by simp [opt, char]⟩
  · refine ⟨none, ?_⟩
    cases u with
    | nil => simp [opt, char]
    | cons d u =>
      have : d ≠ c := by
        rintro rfl
        exact h (by simp)
      simp [opt, char, this]

theorem takeWhile1_err {p : Char → Bool} {u : Str} {e : Err Char} :
    takeWhile1 p u = .err e ↔ ¬ BeginsWith p u ∧ e = .error u .takeWhile1 := by
  unfold takeWhile1 BeginsWith
  cases u with
  | nil => simp [err_iff]
  | cons c u => cases h : p c <;> simp [List.takeWhile, h, err_iff]

theorem char_err {c : Char} {u : Str} {e : Err Char} :
    char c u = .err e ↔ ¬ BeginsWith (· == c) u ∧ e = .error u .char := by
  unfold char BeginsWith
  cases u with
  | nil => simp [err_iff]
  | cons d u =>
    by_cases h : d = c <;> simp [h, err_iff]

theorem digit19 {c : Char} : c ∈ c!"123456789" ↔ '1' ≤ c ∧ c ≤ '9' := by
  constructor
  · intro h
    simp at h
    rcases h with rfl | rfl | rfl | rfl | rfl | rfl | rfl | rfl | rfl <;> decide
  · intro h
    simp only [Char.le_def, UInt32.le_iff_toNat_le] at h
    have : ∃ k, c.toNat = 49 + k ∧ k < 9 := ⟨c.toNat - 49, by
      simp at h; omega, by simp at h; omega⟩
    obtain ⟨k, h1, h2⟩ := this
    have hc : c = Char.ofNat (49 + k) := by rw [← h1, Char.ofNat_toNat]
    subst hc
    clear h h1
    revert k
    decide

theorem orElse_err {σ α : Type} {p q : P σ α} {u v : List σ} {k : ErrorKind} (h : orElse p q u = .err (.error v k)) :
    q u = .err (.error v k) := by
  unfold orElse at h
  split at h
  · exact h
  · rename_i hn
    exact absurd h (hn _ _)

theorem alt_err {σ α : Type} {ps : List (P σ α)} {u v : List σ} {k : ErrorKind} (h : alt ps u = .err (.error v k)) :
    v = u ∧ k = .alt := by
  induction ps with
  | nil =>
    cases h
    exact ⟨rfl, rfl⟩
  | cons p ps ih => exact ih (orElse_err h)

theorem alts_err {α : Type} {gs : List (G α)} {u v : Str} {k : ErrorKind} (h : (G.alts gs).parse u = .err (.error v k)) :
    v = u ∧ k = .alt := by
  induction gs with
  | nil =>
    cases h
    exact ⟨rfl, rfl⟩
  | cons p ps ih => exact ih (orElse_err h)

theorem dropWhile_all {p : Char → Bool} {l : Str} (h : ∀ x ∈ l, p x = true) : l.dropWhile p = [] := by
  induction l with
  | nil => rfl
  | cons a l ih =>
    rw [List.dropWhile_cons, if_pos (h a (by simp))]
    exact ih fun x hx => h x (by simp [hx])

/-- The parser consumes something whenever it succeeds. -/
def Consumes {σ α : Type} (p : P σ α) : Prop := ∀ s r a, p s = .ok r a → r.length < s.length

theorem consRes_err {σ α : Type} {a : α} {x : Res σ (List α)} {e : Err σ} : consRes a x = .err e ↔ x = .err e := by
  cases x <;> simp [consRes]

theorem many0Loop_err {σ α : Type} [DecidableEq σ] {p : P σ α} (hp : Consumes p) {n : Nat} {s u : List σ} {k : ErrorKind} :
    many0Loop p n s ≠ .err (.error u k) := by
  induction n generalizing s with
  | zero => simp [many0Loop]
  | succ n ih =>
    unfold many0Loop
    intro h
    split at h
    · cases h
    · rename_i hn _
      cases h
      exact hn _ _ rfl
    · cases h
    · rename_i r a ha
      rw [if_neg (fun hr => by have := hp _ _ _ ha; rw [hr] at this; omega), consRes_err] at h
      exact ih h

theorem sepLoop_err {σ α β : Type} [DecidableEq σ] {sep : P σ β} {p : P σ α} (hs : Consumes sep) (hp : Consumes p) {n : Nat}
    {s u : List σ} {k : ErrorKind} : sepLoop sep p n s ≠ .err (.error u k) := by
  induction n generalizing s with
  | zero => simp [sepLoop]
  | succ n ih =>
    unfold sepLoop
    intro h
    split at h
    · cases h
    · rename_i hn _
      cases h
      exact hn _ _ rfl
    · cases h
    · rename_i r a ha
      have h1 := hs _ _ _ ha
      rw [if_neg (fun hr => by rw [hr] at h1; omega)] at h
      split at h
      · cases h
      · rename_i hn _
        cases h
        exact hn _ _ rfl
      · cases h
      · rename_i r' a' ha'
        have h2 := hp _ _ _ ha'
        rw [if_neg (fun hr => by rw [hr] at h2; omega), consRes_err] at h
        exact ih h

theorem separatedList_err {σ α β : Type} [DecidableEq σ] {sep : P σ β} {p : P σ α} (hs : Consumes sep) (hp : Consumes p)
    {s u : List σ} {k : ErrorKind} : separatedList sep p s ≠ .err (.error u k) := by
  unfold separatedList
  intro h
  split at h
  · cases h
  · rename_i hn _
    cases h
    exact hn _ _ rfl
  · cases h
  · rename_i r a ha
    rw [if_neg (fun hr => by have := hp _ _ _ ha; rw [hr] at this; omega), consRes_err] at h
    exact sepLoop_err hs hp h

theorem separatedNonemptyList_err {σ α β : Type} [DecidableEq σ] {sep : P σ β} {p : P σ α} (hs : Consumes sep) (hp : Consumes p)
    {s u : List σ} {k : ErrorKind} : separatedNonemptyList sep p s = .err (.error u k) ↔ p s = .err (.error u k) := by
  unfold separatedNonemptyList
  split
  · rename_i h
    simp [h]
  · rename_i h
    simp [h]
  · rename_i r a ha
    rw [if_neg (fun hr => by have := hp _ _ _ ha; rw [hr] at this; omega), consRes_err, ha]
    simp [sepLoop_err hs hp]

end Verif
