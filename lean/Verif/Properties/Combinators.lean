import Verif.Proof.Repetition

/-!
# C08, C27: the generic `Parse` implementations, for every element parser
-/

namespace Verif.Properties
open Nom Spec

variable {σ α β γ : Type}

/-! The hypothesis of the theorems on lists, for the parsers in the examples. -/

theorem suffixing_char {c : Char} : Suffixing (char c) := by
  intro s r a h
  unfold char at h
  split at h
  · split at h <;> simp at h
    obtain ⟨rfl, _⟩ := h
    exact List.suffix_cons _ _
  · cases h

/-! ## C08 -/

/-- `Option<T>`: either `T`'s success, or `None` at the same place because `T` failed. -/
theorem C08_option (p : P σ α) (s r : List σ) (o : Option α) :
    opt p s = .ok r o ↔
      (∃ a, o = some a ∧ p s = .ok r a) ∨ (o = none ∧ r = s ∧ Fails p s) := by
  unfold Fails
  simp only [opt]
  cases e : p s with
  | ok r' a => simp; grind
  | diverge => simp
  | err e' => cases e' <;> simp <;> grind

example : opt (char 'x') c!"yx" = .ok c!"yx" none := (C08_option _ _ _ _).2 (.inr ⟨rfl, rfl, _, _, rfl⟩)

theorem suffixing_opt {p : P σ α} (hp : Suffixing p) : Suffixing (opt p) := by
  intro s r a h
  rcases (C08_option p s r a).1 h with ⟨b, -, h⟩ | ⟨-, rfl, -⟩
  · exact hp _ _ _ h
  · exact List.suffix_refl _

/-- `Option<T>` never fails recoverably. -/
theorem C08_option_total (p : P σ α) (s : List σ) : ¬ Fails (opt p) s := by
  unfold Fails
  simp only [opt]
  cases e : p s with
  | err e' => cases e' <;> simp
  | _ => simp

example : ¬ Fails (opt (char 'x')) c!"yx" := C08_option_total _ _

/-- `Vec<T>`: the successive results of `T`, until `T` fails. -/
theorem C08_vec [DecidableEq σ] (p : P σ α) (hp : Suffixing p) (s r : List σ) (as : List α) :
    many0 p s = .ok r as ↔ Chain p s as r ∧ Fails p r :=
  many0_ok_iff hp

example : Chain (char 'x') c!"xxy" c!"xx" c!"y" ∧ Fails (char 'x') c!"y" :=
  (C08_vec _ suffixing_char _ _ _).1 rfl

/-- `Vec<T>` is never empty-handed by failing, except when an element matches nothing. -/
theorem C08_vec_fails [DecidableEq σ] (p : P σ α) (hp : Suffixing p) (s : List σ) (h : Fails (many0 p) s) :
    ∃ as r a, Chain p s as r ∧ p r = .ok r a := by
  obtain ⟨q, k, h⟩ := h
  induction hn : s.length using Nat.strongRecOn generalizing s with
  | ind n ih =>
    rw [many0_eq hp] at h
    cases e : p s with
    | ok m a =>
      rw [e] at h
      dsimp only at h
      split at h
      · next hm => subst hm; exact ⟨[], m, a, .nil, e⟩
      · next hne =>
        have h' : many0 p m = .err (.error q k) := by
          revert h; cases many0 p m <;> simp [consRes]
        obtain ⟨as, r, b, h1, h2⟩ := ih _ (hn ▸ suffix_ne_length (hp _ _ _ e) hne) m h' rfl
        exact ⟨a :: as, r, b, .cons e hne h1, h2⟩
    | diverge => rw [e] at h; cases h
    | err e' => rw [e] at h; cases e' <;> cases h

example : ∃ as r a, Chain (fun s => (opt (char 'x') s : Res Char (Option Char))) c!"xxy" as r ∧ opt (char 'x') r = .ok r a :=
  C08_vec_fails _ (suffixing_opt suffixing_char) _ ⟨_, _, rfl⟩

/-- The tuple `(T, U)`: `T` on the input, `U` on the remainder of `T`. -/
theorem C08_pair (p : P σ α) (q : P σ β) (s r : List σ) (a : α) (b : β) :
    seq p (fun a => seq q fun b => ret (a, b)) s = .ok r (a, b) ↔
      ∃ m, p s = .ok m a ∧ q m = .ok r b := by
  unfold seq ret
  cases p s with
  | ok m a' => cases e : q m <;> simp <;> grind
  | _ => simp

example : seq (char 'x') (fun a => seq (char 'y') fun b => ret (a, b)) c!"xyz" = .ok c!"z" ('x', 'y') :=
  (C08_pair _ _ _ _ _ _).2 ⟨_, rfl, rfl⟩

/-- A tuple fails where its first failing part fails. -/
theorem C08_pair_fails (p : P σ α) (q : P σ β) (s : List σ) :
    Fails (seq p fun a => seq q fun b => ret (a, b)) s ↔
      Fails p s ∨ ∃ m a, p s = .ok m a ∧ Fails q m := by
  unfold Fails
  simp only [seq, ret]
  cases e : p s with
  | ok m a' => cases e : q m <;> simp <;> grind
  | _ => simp

example : Fails (seq (char 'x') fun a => seq (char 'y') fun b => ret (a, b)) c!"xz" :=
  (C08_pair_fails _ _ _).2 (.inr ⟨_, _, rfl, _, _, rfl⟩)

/-- The tuple `(T, U, V)`. -/
theorem C08_triple (p : P σ α) (q : P σ β) (v : P σ γ) (s r : List σ) (a : α) (b : β) (c : γ) :
    seq p (fun a => seq q fun b => seq v fun c => ret (a, b, c)) s = .ok r (a, b, c) ↔
      ∃ m n, p s = .ok m a ∧ q m = .ok n b ∧ v n = .ok r c := by
  unfold seq ret
  cases p s with
  | ok m a' =>
    cases e : q m with
    | ok n b' => cases e' : v n <;> simp <;> grind
    | _ => simp; grind
  | _ => simp

example : many0 (char 'x') c!"xxy" = .ok c!"y" c!"xx" := by rfl
example : Fails (many0 (opt (char 'x'))) c!"xxy" := ⟨_, _, rfl⟩

/-! ## C27 -/

/-- `Punctuated<T, S>`: an empty list exactly where `T` fails, otherwise `T S T ... S T`
as far as possible. `Stops sep p r` says that at the remainder `r` there is no separator, or one
without a following element; in the latter case the separator is still in `r`. -/
theorem C27_punctuated [DecidableEq σ] (sep : P σ β) (p : P σ α) (hsep : Suffixing sep) (hp : Suffixing p)
    (s r : List σ) (as : List α) :
    separatedList sep p s = .ok r as ↔
      (as = [] ∧ r = s ∧ Fails p s) ∨
      ∃ a as' m, as = a :: as' ∧ p s = .ok m a ∧ m ≠ s ∧ SepChain sep p m as' r ∧
        Stops sep p r :=
  separatedList_ok_iff hsep hp

example : separatedList (char ',') (char 'x') c!"x,x,y" = .ok c!",y" c!"xx" :=
  (C27_punctuated _ _ suffixing_char suffixing_char _ _ _).2
    (.inr ⟨'x', ['x'], c!",x,y", rfl, rfl, by decide, .cons (m := c!"x,y") (n := c!",y") rfl (by decide) rfl .nil, .inr ⟨c!"y", _, rfl, by decide, _, _, rfl⟩⟩)

/-- The list inside `PunctuatedNonEmpty<T, S>`. -/
theorem C27_nonempty [DecidableEq σ] (sep : P σ β) (p : P σ α) (hsep : Suffixing sep) (hp : Suffixing p)
    (s r : List σ) (as : List α) :
    separatedNonemptyList sep p s = .ok r as ↔
      ∃ a as' m, as = a :: as' ∧ p s = .ok m a ∧ m ≠ s ∧ SepChain sep p m as' r ∧
        Stops sep p r :=
  separatedNonemptyList_ok_iff hsep hp

example : ¬ ∃ r as, separatedNonemptyList (char ',') (char 'x') c!",x" = .ok r as := by
  rintro ⟨r, as, h⟩
  obtain ⟨a, as', m, -, h, -⟩ := (C27_nonempty _ _ suffixing_char suffixing_char _ _ _).1 h
  cases h

/-- A separator that is not followed by an element stays in the remainder. -/
theorem C27_trailing [DecidableEq σ] (sep : P σ β) (p : P σ α) (hsep : Suffixing sep) (hp : Suffixing p)
    (s m n : List σ) (a : α) (b : β) (h1 : p s = .ok m a) (h1' : m ≠ s)
    (h2 : sep m = .ok n b) (h2' : n ≠ m) (h3 : Fails p n) :
    separatedList sep p s = .ok m [a] :=
  (separatedList_ok_iff hsep hp).2
    (.inr ⟨a, [], m, rfl, h1, h1', .nil, .inr ⟨n, b, h2, h2', h3⟩⟩)

example : separatedList (char ',') (char 'x') c!"x,x,y" = .ok c!",y" c!"xx" := by rfl
example : separatedList (char ',') (char 'x') c!",x" = .ok c!",x" [] := by rfl

end Verif.Properties
