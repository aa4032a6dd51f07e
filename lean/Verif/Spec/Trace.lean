import Verif.Model.Parse

/-!
# Executions, with the terminals that are tried

`Traced leaf g s L x`: as `Runs` in `Verif/Spec/BigStep.lean`, where `L` lists the terminals that are tried, in order, with the
places where they are tried: the parser described by `g`, run on `s`, returns `x`, and `L` is what it has tried.
-/

namespace Verif.Spec
open Nom

variable {σ : Type}

/-- A terminal, tried on a text. -/
structure Attempt (σ : Type) where
  {type : Type}
  leaf : Leaf type
  place : List σ

mutual

inductive Traced (leaf : ∀ α, Leaf α → P σ α) :
    {α : Type} → G α → List σ → List (Attempt σ) → Res σ α → Prop where
  | ret {α : Type} {a : α} {s : List σ} : Traced leaf (.ret a) s [] (.ok s a)
  | leaf {α : Type} {l : Leaf α} {s : List σ} : Traced leaf (.leaf l) s [⟨l, s⟩] (leaf α l s)
  | bindOk {α β : Type} {g : G α} {f : α → G β} {s r : List σ} {a : α} {x : Res σ β}
      {C D : List (Attempt σ)} (h1 : Traced leaf g s C (.ok r a)) (h2 : Traced leaf (f a) r D x) :
      Traced leaf (.bind g f) s (C ++ D) x
  | bindErr {α β : Type} {g : G α} {f : α → G β} {s : List σ} {e : Err σ} {C : List (Attempt σ)}
      (h : Traced leaf g s C (.err e)) : Traced leaf (.bind g f) s C (.err e)
  | orElseOk {α : Type} {g h : G α} {s r : List σ} {a : α} {C : List (Attempt σ)}
      (h1 : Traced leaf g s C (.ok r a)) : Traced leaf (.orElse g h) s C (.ok r a)
  | orElseNext {α : Type} {g h : G α} {s p : List σ} {k : ErrorKind} {x : Res σ α} {C D : List (Attempt σ)}
      (h1 : Traced leaf g s C (.err (.error p k))) (h2 : Traced leaf h s D x) :
      Traced leaf (.orElse g h) s (C ++ D) x
  | orElseErr {α : Type} {g h : G α} {s : List σ} {e : Err σ} {C : List (Attempt σ)}
      (h1 : Traced leaf g s C (.err e)) (he : ∀ p k, e ≠ .error p k) :
      Traced leaf (.orElse g h) s C (.err e)
  | altEnd {α : Type} {s : List σ} : Traced leaf (.altEnd (α := α)) s [] (.err (.error s .alt))
  | optSome {α : Type} {g : G α} {s r : List σ} {a : α} {C : List (Attempt σ)}
      (h : Traced leaf g s C (.ok r a)) : Traced leaf (.opt g) s C (.ok r (some a))
  | optNone {α : Type} {g : G α} {s p : List σ} {k : ErrorKind} {C : List (Attempt σ)}
      (h : Traced leaf g s C (.err (.error p k))) : Traced leaf (.opt g) s C (.ok s none)
  | optErr {α : Type} {g : G α} {s : List σ} {e : Err σ} {C : List (Attempt σ)}
      (h : Traced leaf g s C (.err e)) (he : ∀ p k, e ≠ .error p k) :
      Traced leaf (.opt g) s C (.err e)
  | many0Stop {α : Type} {g : G α} {s p : List σ} {k : ErrorKind} {C : List (Attempt σ)}
      (h : Traced leaf g s C (.err (.error p k))) : Traced leaf (.many0 g) s C (.ok s [])
  | many0Err {α : Type} {g : G α} {s : List σ} {e : Err σ} {C : List (Attempt σ)}
      (h : Traced leaf g s C (.err e)) (he : ∀ p k, e ≠ .error p k) :
      Traced leaf (.many0 g) s C (.err e)
  | many0Empty {α : Type} {g : G α} {s : List σ} {a : α} {C : List (Attempt σ)}
      (h : Traced leaf g s C (.ok s a)) : Traced leaf (.many0 g) s C (.err (.error s .many0))
  | many0More {α : Type} {g : G α} {s r : List σ} {a : α} {x : Res σ (List α)} {C D : List (Attempt σ)}
      (h : Traced leaf g s C (.ok r a)) (hne : r ≠ s) (h2 : Traced leaf (.many0 g) r D x) :
      Traced leaf (.many0 g) s (C ++ D) (consRes a x)
  | sepStop {α β : Type} {sep : G β} {g : G α} {s p : List σ} {k : ErrorKind} {C : List (Attempt σ)}
      (h : Traced leaf g s C (.err (.error p k))) : Traced leaf (.separatedList sep g) s C (.ok s [])
  | sepErr {α β : Type} {sep : G β} {g : G α} {s : List σ} {e : Err σ} {C : List (Attempt σ)}
      (h : Traced leaf g s C (.err e)) (he : ∀ p k, e ≠ .error p k) :
      Traced leaf (.separatedList sep g) s C (.err e)
  | sepEmpty {α β : Type} {sep : G β} {g : G α} {s : List σ} {a : α} {C : List (Attempt σ)}
      (h : Traced leaf g s C (.ok s a)) :
      Traced leaf (.separatedList sep g) s C (.err (.error s .separatedList))
  | sepMore {α β : Type} {sep : G β} {g : G α} {s r : List σ} {a : α} {x : Res σ (List α)}
      {C D : List (Attempt σ)} (h : Traced leaf g s C (.ok r a)) (hne : r ≠ s)
      (h2 : TracedTail leaf sep g r D x) : Traced leaf (.separatedList sep g) s (C ++ D) (consRes a x)
  | sep1Err {α β : Type} {sep : G β} {g : G α} {s : List σ} {e : Err σ} {C : List (Attempt σ)}
      (h : Traced leaf g s C (.err e)) : Traced leaf (.separatedNonemptyList sep g) s C (.err e)
  | sep1Empty {α β : Type} {sep : G β} {g : G α} {s : List σ} {a : α} {C : List (Attempt σ)}
      (h : Traced leaf g s C (.ok s a)) :
      Traced leaf (.separatedNonemptyList sep g) s C (.err (.error s .separatedList))
  | sep1More {α β : Type} {sep : G β} {g : G α} {s r : List σ} {a : α} {x : Res σ (List α)}
      {C D : List (Attempt σ)} (h : Traced leaf g s C (.ok r a)) (hne : r ≠ s)
      (h2 : TracedTail leaf sep g r D x) :
      Traced leaf (.separatedNonemptyList sep g) s (C ++ D) (consRes a x)
  | call {α : Type} {N : NT α} {s : List σ} {x : Res σ α} {C : List (Attempt σ)}
      (h : Traced leaf (G.body N) s C x) : Traced leaf (.call N) s C x

/-- The loop of a separated list, after an element. -/
inductive TracedTail (leaf : ∀ α, Leaf α → P σ α) :
    {α β : Type} → G β → G α → List σ → List (Attempt σ) → Res σ (List α) → Prop where
  | noSep {α β : Type} {sep : G β} {g : G α} {s p : List σ} {k : ErrorKind} {C : List (Attempt σ)}
      (h : Traced leaf sep s C (.err (.error p k))) : TracedTail leaf sep g s C (.ok s [])
  | sepErr {α β : Type} {sep : G β} {g : G α} {s : List σ} {e : Err σ} {C : List (Attempt σ)}
      (h : Traced leaf sep s C (.err e)) (he : ∀ p k, e ≠ .error p k) :
      TracedTail leaf sep g s C (.err e)
  | sepEmpty {α β : Type} {sep : G β} {g : G α} {s : List σ} {b : β} {C : List (Attempt σ)}
      (h : Traced leaf sep s C (.ok s b)) :
      TracedTail leaf sep g s C (.err (.error s .separatedList))
  | noElem {α β : Type} {sep : G β} {g : G α} {s r p : List σ} {b : β} {k : ErrorKind}
      {C D : List (Attempt σ)} (h : Traced leaf sep s C (.ok r b)) (hne : r ≠ s)
      (h2 : Traced leaf g r D (.err (.error p k))) : TracedTail leaf sep g s (C ++ D) (.ok s [])
  | elemErr {α β : Type} {sep : G β} {g : G α} {s r : List σ} {b : β} {e : Err σ}
      {C D : List (Attempt σ)} (h : Traced leaf sep s C (.ok r b)) (hne : r ≠ s)
      (h2 : Traced leaf g r D (.err e)) (he : ∀ p k, e ≠ .error p k) :
      TracedTail leaf sep g s (C ++ D) (.err e)
  | back {α β : Type} {sep : G β} {g : G α} {s r : List σ} {b : β} {a : α} {C D : List (Attempt σ)}
      (h : Traced leaf sep s C (.ok r b)) (hne : r ≠ s) (h2 : Traced leaf g r D (.ok s a)) :
      TracedTail leaf sep g s (C ++ D) (.err (.error s .separatedList))
  | more {α β : Type} {sep : G β} {g : G α} {s r q : List σ} {b : β} {a : α}
      {x : Res σ (List α)} {C D E : List (Attempt σ)}
      (h : Traced leaf sep s C (.ok r b)) (hne : r ≠ s) (h2 : Traced leaf g r D (.ok q a))
      (hne2 : q ≠ s) (h3 : TracedTail leaf sep g q E x) :
      TracedTail leaf sep g s (C ++ D ++ E) (consRes a x)

end

end Verif.Spec
