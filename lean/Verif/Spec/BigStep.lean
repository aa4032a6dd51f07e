import Verif.Model.Parse

/-!
# Executions, without recursion bounds

`Runs leaf g s c x`: the parser described by `g`, run on `s`, returns `x` after trying
`c` terminals. A derivation is a finite execution: there are no bounds on
iterations or depth anywhere, so a parser that loops or recurses for ever has no derivation. The
rules are those of nom's combinators.
-/

namespace Verif.Spec
open Nom

variable {σ : Type}

mutual

inductive Runs (leaf : ∀ α, Leaf α → P σ α) :
    {α : Type} → G α → List σ → Nat → Res σ α → Prop where
  | ret {α : Type} {a : α} {s : List σ} : Runs leaf (.ret a) s 0 (.ok s a)
  | leaf {α : Type} {l : Leaf α} {s : List σ} : Runs leaf (.leaf l) s 1 (leaf α l s)
  | bindOk {α β : Type} {g : G α} {f : α → G β} {s r : List σ} {a : α} {x : Res σ β}
      {c d : Nat} (h1 : Runs leaf g s c (.ok r a)) (h2 : Runs leaf (f a) r d x) :
      Runs leaf (.bind g f) s (c + d) x
  | bindErr {α β : Type} {g : G α} {f : α → G β} {s : List σ} {e : Err σ} {c : Nat}
      (h : Runs leaf g s c (.err e)) : Runs leaf (.bind g f) s c (.err e)
  | orElseOk {α : Type} {g h : G α} {s r : List σ} {a : α} {c : Nat}
      (h1 : Runs leaf g s c (.ok r a)) : Runs leaf (.orElse g h) s c (.ok r a)
  | orElseNext {α : Type} {g h : G α} {s p : List σ} {k : ErrorKind} {x : Res σ α} {c d : Nat}
      (h1 : Runs leaf g s c (.err (.error p k))) (h2 : Runs leaf h s d x) :
      Runs leaf (.orElse g h) s (c + d) x
  | orElseErr {α : Type} {g h : G α} {s : List σ} {e : Err σ} {c : Nat}
      (h1 : Runs leaf g s c (.err e)) (he : ∀ p k, e ≠ .error p k) :
      Runs leaf (.orElse g h) s c (.err e)
  | altEnd {α : Type} {s : List σ} : Runs leaf (.altEnd (α := α)) s 0 (.err (.error s .alt))
  | optSome {α : Type} {g : G α} {s r : List σ} {a : α} {c : Nat}
      (h : Runs leaf g s c (.ok r a)) : Runs leaf (.opt g) s c (.ok r (some a))
  | optNone {α : Type} {g : G α} {s p : List σ} {k : ErrorKind} {c : Nat}
      (h : Runs leaf g s c (.err (.error p k))) : Runs leaf (.opt g) s c (.ok s none)
  | optErr {α : Type} {g : G α} {s : List σ} {e : Err σ} {c : Nat}
      (h : Runs leaf g s c (.err e)) (he : ∀ p k, e ≠ .error p k) :
      Runs leaf (.opt g) s c (.err e)
  | many0Stop {α : Type} {g : G α} {s p : List σ} {k : ErrorKind} {c : Nat}
      (h : Runs leaf g s c (.err (.error p k))) : Runs leaf (.many0 g) s c (.ok s [])
  | many0Err {α : Type} {g : G α} {s : List σ} {e : Err σ} {c : Nat}
      (h : Runs leaf g s c (.err e)) (he : ∀ p k, e ≠ .error p k) :
      Runs leaf (.many0 g) s c (.err e)
  | many0Empty {α : Type} {g : G α} {s : List σ} {a : α} {c : Nat}
      (h : Runs leaf g s c (.ok s a)) : Runs leaf (.many0 g) s c (.err (.error s .many0))
  | many0More {α : Type} {g : G α} {s r : List σ} {a : α} {x : Res σ (List α)} {c d : Nat}
      (h : Runs leaf g s c (.ok r a)) (hne : r ≠ s) (h2 : Runs leaf (.many0 g) r d x) :
      Runs leaf (.many0 g) s (c + d) (consRes a x)
  | sepStop {α β : Type} {sep : G β} {g : G α} {s p : List σ} {k : ErrorKind} {c : Nat}
      (h : Runs leaf g s c (.err (.error p k))) : Runs leaf (.separatedList sep g) s c (.ok s [])
  | sepErr {α β : Type} {sep : G β} {g : G α} {s : List σ} {e : Err σ} {c : Nat}
      (h : Runs leaf g s c (.err e)) (he : ∀ p k, e ≠ .error p k) :
      Runs leaf (.separatedList sep g) s c (.err e)
  | sepEmpty {α β : Type} {sep : G β} {g : G α} {s : List σ} {a : α} {c : Nat}
      (h : Runs leaf g s c (.ok s a)) :
      Runs leaf (.separatedList sep g) s c (.err (.error s .separatedList))
  | sepMore {α β : Type} {sep : G β} {g : G α} {s r : List σ} {a : α} {x : Res σ (List α)}
      {c d : Nat} (h : Runs leaf g s c (.ok r a)) (hne : r ≠ s)
      (h2 : RunsTail leaf sep g r d x) : Runs leaf (.separatedList sep g) s (c + d) (consRes a x)
  | sep1Err {α β : Type} {sep : G β} {g : G α} {s : List σ} {e : Err σ} {c : Nat}
      (h : Runs leaf g s c (.err e)) : Runs leaf (.separatedNonemptyList sep g) s c (.err e)
  | sep1Empty {α β : Type} {sep : G β} {g : G α} {s : List σ} {a : α} {c : Nat}
      (h : Runs leaf g s c (.ok s a)) :
      Runs leaf (.separatedNonemptyList sep g) s c (.err (.error s .separatedList))
  | sep1More {α β : Type} {sep : G β} {g : G α} {s r : List σ} {a : α} {x : Res σ (List α)}
      {c d : Nat} (h : Runs leaf g s c (.ok r a)) (hne : r ≠ s)
      (h2 : RunsTail leaf sep g r d x) :
      Runs leaf (.separatedNonemptyList sep g) s (c + d) (consRes a x)
  | call {α : Type} {N : NT α} {s : List σ} {x : Res σ α} {c : Nat}
      (h : Runs leaf (G.body N) s c x) : Runs leaf (.call N) s c x

/-- The loop of a separated list, after an element. -/
inductive RunsTail (leaf : ∀ α, Leaf α → P σ α) :
    {α β : Type} → G β → G α → List σ → Nat → Res σ (List α) → Prop where
  | noSep {α β : Type} {sep : G β} {g : G α} {s p : List σ} {k : ErrorKind} {c : Nat}
      (h : Runs leaf sep s c (.err (.error p k))) : RunsTail leaf sep g s c (.ok s [])
  | sepErr {α β : Type} {sep : G β} {g : G α} {s : List σ} {e : Err σ} {c : Nat}
      (h : Runs leaf sep s c (.err e)) (he : ∀ p k, e ≠ .error p k) :
      RunsTail leaf sep g s c (.err e)
  | sepEmpty {α β : Type} {sep : G β} {g : G α} {s : List σ} {b : β} {c : Nat}
      (h : Runs leaf sep s c (.ok s b)) :
      RunsTail leaf sep g s c (.err (.error s .separatedList))
  | noElem {α β : Type} {sep : G β} {g : G α} {s r p : List σ} {b : β} {k : ErrorKind}
      {c d : Nat} (h : Runs leaf sep s c (.ok r b)) (hne : r ≠ s)
      (h2 : Runs leaf g r d (.err (.error p k))) : RunsTail leaf sep g s (c + d) (.ok s [])
  | elemErr {α β : Type} {sep : G β} {g : G α} {s r : List σ} {b : β} {e : Err σ}
      {c d : Nat} (h : Runs leaf sep s c (.ok r b)) (hne : r ≠ s)
      (h2 : Runs leaf g r d (.err e)) (he : ∀ p k, e ≠ .error p k) :
      RunsTail leaf sep g s (c + d) (.err e)
  | back {α β : Type} {sep : G β} {g : G α} {s r : List σ} {b : β} {a : α} {c d : Nat}
      (h : Runs leaf sep s c (.ok r b)) (hne : r ≠ s) (h2 : Runs leaf g r d (.ok s a)) :
      RunsTail leaf sep g s (c + d) (.err (.error s .separatedList))
  | more {α β : Type} {sep : G β} {g : G α} {s r q : List σ} {b : β} {a : α}
      {x : Res σ (List α)} {c d e : Nat}
      (h : Runs leaf sep s c (.ok r b)) (hne : r ≠ s) (h2 : Runs leaf g r d (.ok q a))
      (hne2 : q ≠ s) (h3 : RunsTail leaf sep g q e x) :
      RunsTail leaf sep g s (c + d + e) (consRes a x)

end

end Verif.Spec
