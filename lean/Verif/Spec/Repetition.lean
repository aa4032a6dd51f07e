import Verif.Model.Nom

/-!
# Repetition, specified by chains of successes
-/

namespace Verif.Spec
open Nom

variable {σ α β : Type}

/-- `p` fails on `s`, recoverably. -/
def Fails (p : P σ α) (s : List σ) : Prop := ∃ pos kind, p s = .err (.error pos kind)

/-- The remainder of every success of `p` is a suffix of the input. -/
def Suffixing (p : P σ α) : Prop := ∀ s r a, p s = .ok r a → r <:+ s

/-- Running `p` again and again, each time on the remainder of the previous run, consumes `s`
down to `r` and gives `as`, each run consuming something. -/
inductive Chain (p : P σ α) : List σ → List α → List σ → Prop where
  | nil {s : List σ} : Chain p s [] s
  | cons {s m r : List σ} {a : α} {as : List α} (h : p s = .ok m a) (hne : m ≠ s)
      (rest : Chain p m as r) : Chain p s (a :: as) r

/-- `sep`, `p`, `sep`, `p`, ... in turn consume `s` down to `r`; the results of `p` are `as`. -/
inductive SepChain (sep : P σ β) (p : P σ α) : List σ → List α → List σ → Prop where
  | nil {s : List σ} : SepChain sep p s [] s
  | cons {s m n r : List σ} {a : α} {b : β} {as : List α} (hs : sep s = .ok m b)
      (hne : m ≠ s) (h : p m = .ok n a) (rest : SepChain sep p n as r) :
      SepChain sep p s (a :: as) r

/-- A separated list ends before `r`: no separator there, or a separator that is not
followed by an element. -/
def Stops (sep : P σ β) (p : P σ α) (r : List σ) : Prop :=
  Fails sep r ∨ ∃ n b, sep r = .ok n b ∧ n ≠ r ∧ Fails p n

end Verif.Spec
