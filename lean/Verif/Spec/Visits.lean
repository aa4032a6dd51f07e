import Verif.Model.Parse

/-!
# Executions, with the places that are visited

`Weighed leaf w g s c x`: as `Runs` in `Verif/Spec/BigStep.lean`, where trying a terminal on the text `t` costs `w t`: the
parser described by `g`, run on `s`, returns `x`, and `c` is the sum of the costs. With `w t = 1` for all `t` these are the
executions of `Runs`; with `visit m`, `c` is how often a terminal is tried at the place before the last `m` characters.
-/

namespace Verif.Spec
open Nom

variable {σ : Type}

/-- Counts the terminals tried before the last `m` characters. -/
def visit (m : Nat) (s : List σ) : Nat := if s.length = m then 1 else 0

/-- The places of a text: the text, and what is left of it after one character, after two, and so on. -/
def ends : List σ → List (List σ)
  | [] => [[]]
  | c :: s => (c :: s) :: ends s

mutual

inductive Weighed (leaf : ∀ α, Leaf α → P σ α) (w : List σ → Nat) :
    {α : Type} → G α → List σ → Nat → Res σ α → Prop where
  | ret {α : Type} {a : α} {s : List σ} : Weighed leaf w (.ret a) s 0 (.ok s a)
  | leaf {α : Type} {l : Leaf α} {s : List σ} : Weighed leaf w (.leaf l) s (w s) (leaf α l s)
  | bindOk {α β : Type} {g : G α} {f : α → G β} {s r : List σ} {a : α} {x : Res σ β}
      {c d : Nat} (h1 : Weighed leaf w g s c (.ok r a)) (h2 : Weighed leaf w (f a) r d x) :
      Weighed leaf w (.bind g f) s (c + d) x
  | bindErr {α β : Type} {g : G α} {f : α → G β} {s : List σ} {e : Err σ} {c : Nat}
      (h : Weighed leaf w g s c (.err e)) : Weighed leaf w (.bind g f) s c (.err e)
  | orElseOk {α : Type} {g h : G α} {s r : List σ} {a : α} {c : Nat}
      (h1 : Weighed leaf w g s c (.ok r a)) : Weighed leaf w (.orElse g h) s c (.ok r a)
  | orElseNext {α : Type} {g h : G α} {s p : List σ} {k : ErrorKind} {x : Res σ α} {c d : Nat}
      (h1 : Weighed leaf w g s c (.err (.error p k))) (h2 : Weighed leaf w h s d x) :
      Weighed leaf w (.orElse g h) s (c + d) x
  | orElseErr {α : Type} {g h : G α} {s : List σ} {e : Err σ} {c : Nat}
      (h1 : Weighed leaf w g s c (.err e)) (he : ∀ p k, e ≠ .error p k) :
      Weighed leaf w (.orElse g h) s c (.err e)
  | altEnd {α : Type} {s : List σ} : Weighed leaf w (.altEnd (α := α)) s 0 (.err (.error s .alt))
  | optSome {α : Type} {g : G α} {s r : List σ} {a : α} {c : Nat}
      (h : Weighed leaf w g s c (.ok r a)) : Weighed leaf w (.opt g) s c (.ok r (some a))
  | optNone {α : Type} {g : G α} {s p : List σ} {k : ErrorKind} {c : Nat}
      (h : Weighed leaf w g s c (.err (.error p k))) : Weighed leaf w (.opt g) s c (.ok s none)
  | optErr {α : Type} {g : G α} {s : List σ} {e : Err σ} {c : Nat}
      (h : Weighed leaf w g s c (.err e)) (he : ∀ p k, e ≠ .error p k) :
      Weighed leaf w (.opt g) s c (.err e)
  | many0Stop {α : Type} {g : G α} {s p : List σ} {k : ErrorKind} {c : Nat}
      (h : Weighed leaf w g s c (.err (.error p k))) : Weighed leaf w (.many0 g) s c (.ok s [])
  | many0Err {α : Type} {g : G α} {s : List σ} {e : Err σ} {c : Nat}
      (h : Weighed leaf w g s c (.err e)) (he : ∀ p k, e ≠ .error p k) :
      Weighed leaf w (.many0 g) s c (.err e)
  | many0Empty {α : Type} {g : G α} {s : List σ} {a : α} {c : Nat}
      (h : Weighed leaf w g s c (.ok s a)) : Weighed leaf w (.many0 g) s c (.err (.error s .many0))
  | many0More {α : Type} {g : G α} {s r : List σ} {a : α} {x : Res σ (List α)} {c d : Nat}
      (h : Weighed leaf w g s c (.ok r a)) (hne : r ≠ s) (h2 : Weighed leaf w (.many0 g) r d x) :
      Weighed leaf w (.many0 g) s (c + d) (consRes a x)
  | sepStop {α β : Type} {sep : G β} {g : G α} {s p : List σ} {k : ErrorKind} {c : Nat}
      (h : Weighed leaf w g s c (.err (.error p k))) : Weighed leaf w (.separatedList sep g) s c (.ok s [])
  | sepErr {α β : Type} {sep : G β} {g : G α} {s : List σ} {e : Err σ} {c : Nat}
      (h : Weighed leaf w g s c (.err e)) (he : ∀ p k, e ≠ .error p k) :
      Weighed leaf w (.separatedList sep g) s c (.err e)
  | sepEmpty {α β : Type} {sep : G β} {g : G α} {s : List σ} {a : α} {c : Nat}
      (h : Weighed leaf w g s c (.ok s a)) :
      Weighed leaf w (.separatedList sep g) s c (.err (.error s .separatedList))
  | sepMore {α β : Type} {sep : G β} {g : G α} {s r : List σ} {a : α} {x : Res σ (List α)}
      {c d : Nat} (h : Weighed leaf w g s c (.ok r a)) (hne : r ≠ s)
      (h2 : WeighedTail leaf w sep g r d x) : Weighed leaf w (.separatedList sep g) s (c + d) (consRes a x)
  | sep1Err {α β : Type} {sep : G β} {g : G α} {s : List σ} {e : Err σ} {c : Nat}
      (h : Weighed leaf w g s c (.err e)) : Weighed leaf w (.separatedNonemptyList sep g) s c (.err e)
  | sep1Empty {α β : Type} {sep : G β} {g : G α} {s : List σ} {a : α} {c : Nat}
      (h : Weighed leaf w g s c (.ok s a)) :
      Weighed leaf w (.separatedNonemptyList sep g) s c (.err (.error s .separatedList))
  | sep1More {α β : Type} {sep : G β} {g : G α} {s r : List σ} {a : α} {x : Res σ (List α)}
      {c d : Nat} (h : Weighed leaf w g s c (.ok r a)) (hne : r ≠ s)
      (h2 : WeighedTail leaf w sep g r d x) :
      Weighed leaf w (.separatedNonemptyList sep g) s (c + d) (consRes a x)
  | call {α : Type} {N : NT α} {s : List σ} {x : Res σ α} {c : Nat}
      (h : Weighed leaf w (G.body N) s c x) : Weighed leaf w (.call N) s c x

/-- The loop of a separated list, after an element. -/
inductive WeighedTail (leaf : ∀ α, Leaf α → P σ α) (w : List σ → Nat) :
    {α β : Type} → G β → G α → List σ → Nat → Res σ (List α) → Prop where
  | noSep {α β : Type} {sep : G β} {g : G α} {s p : List σ} {k : ErrorKind} {c : Nat}
      (h : Weighed leaf w sep s c (.err (.error p k))) : WeighedTail leaf w sep g s c (.ok s [])
  | sepErr {α β : Type} {sep : G β} {g : G α} {s : List σ} {e : Err σ} {c : Nat}
      (h : Weighed leaf w sep s c (.err e)) (he : ∀ p k, e ≠ .error p k) :
      WeighedTail leaf w sep g s c (.err e)
  | sepEmpty {α β : Type} {sep : G β} {g : G α} {s : List σ} {b : β} {c : Nat}
      (h : Weighed leaf w sep s c (.ok s b)) :
      WeighedTail leaf w sep g s c (.err (.error s .separatedList))
  | noElem {α β : Type} {sep : G β} {g : G α} {s r p : List σ} {b : β} {k : ErrorKind}
      {c d : Nat} (h : Weighed leaf w sep s c (.ok r b)) (hne : r ≠ s)
      (h2 : Weighed leaf w g r d (.err (.error p k))) : WeighedTail leaf w sep g s (c + d) (.ok s [])
  | elemErr {α β : Type} {sep : G β} {g : G α} {s r : List σ} {b : β} {e : Err σ}
      {c d : Nat} (h : Weighed leaf w sep s c (.ok r b)) (hne : r ≠ s)
      (h2 : Weighed leaf w g r d (.err e)) (he : ∀ p k, e ≠ .error p k) :
      WeighedTail leaf w sep g s (c + d) (.err e)
  | back {α β : Type} {sep : G β} {g : G α} {s r : List σ} {b : β} {a : α} {c d : Nat}
      (h : Weighed leaf w sep s c (.ok r b)) (hne : r ≠ s) (h2 : Weighed leaf w g r d (.ok s a)) :
      WeighedTail leaf w sep g s (c + d) (.err (.error s .separatedList))
  | more {α β : Type} {sep : G β} {g : G α} {s r q : List σ} {b : β} {a : α}
      {x : Res σ (List α)} {c d e : Nat}
      (h : Weighed leaf w sep s c (.ok r b)) (hne : r ≠ s) (h2 : Weighed leaf w g r d (.ok q a))
      (hne2 : q ≠ s) (h3 : WeighedTail leaf w sep g q e x) :
      WeighedTail leaf w sep g s (c + d + e) (consRes a x)

end

end Verif.Spec
