import Verif.Spec.Visits
import Verif.Proof.BigStep

/-! # Executions with weights -/

namespace Verif
open Nom Spec

variable {σ : Type} {leaf : ∀ α, Leaf α → P σ α} {w : List σ → Nat}

/-- What the last rule of an execution must have been. -/
def Weighed.Inv (leaf : ∀ α, Leaf α → P σ α) (w : List σ → Nat) : {α : Type} → G α → List σ → Nat → Res σ α → Prop
  | _, .ret a, s, c, x => c = 0 ∧ x = .ok s a
  | _, .leaf l, s, c, x => c = w s ∧ x = leaf _ l s
  | _, .bind g f, s, c, x =>
    (∃ r a d e, Weighed leaf w g s d (.ok r a) ∧ Weighed leaf w (f a) r e x ∧ c = d + e) ∨
    (∃ e, Weighed leaf w g s c (.err e) ∧ x = .err e)
  | _, .orElse g h, s, c, x =>
    (∃ r a, Weighed leaf w g s c (.ok r a) ∧ x = .ok r a) ∨
    (∃ p k d e, Weighed leaf w g s d (.err (.error p k)) ∧ Weighed leaf w h s e x ∧ c = d + e) ∨
    (∃ e, (∀ p k, e ≠ .error p k) ∧ Weighed leaf w g s c (.err e) ∧ x = .err e)
  | _, .altEnd, s, c, x => c = 0 ∧ x = .err (.error s .alt)
  | _, .opt g, s, c, x =>
    (∃ r a, Weighed leaf w g s c (.ok r a) ∧ x = .ok r (some a)) ∨
    (∃ p k, Weighed leaf w g s c (.err (.error p k)) ∧ x = .ok s none) ∨
    (∃ e, (∀ p k, e ≠ .error p k) ∧ Weighed leaf w g s c (.err e) ∧ x = .err e)
  | _, .many0 g, s, c, x =>
    (∃ r a d e y, Weighed leaf w g s d (.ok r a) ∧ r ≠ s ∧ Weighed leaf w (.many0 g) r e y ∧ c = d + e ∧
      x = consRes a y) ∨
    (∃ a, Weighed leaf w g s c (.ok s a) ∧ x = .err (.error s .many0)) ∨
    (∃ p k, Weighed leaf w g s c (.err (.error p k)) ∧ x = .ok s []) ∨
    (∃ e, (∀ p k, e ≠ .error p k) ∧ Weighed leaf w g s c (.err e) ∧ x = .err e)
  | _, .separatedList sep g, s, c, x =>
    (∃ r a d e y, Weighed leaf w g s d (.ok r a) ∧ r ≠ s ∧ WeighedTail leaf w sep g r e y ∧ c = d + e ∧
      x = consRes a y) ∨
    (∃ a, Weighed leaf w g s c (.ok s a) ∧ x = .err (.error s .separatedList)) ∨
    (∃ p k, Weighed leaf w g s c (.err (.error p k)) ∧ x = .ok s []) ∨
    (∃ e, (∀ p k, e ≠ .error p k) ∧ Weighed leaf w g s c (.err e) ∧ x = .err e)
  | _, .separatedNonemptyList sep g, s, c, x =>
    (∃ r a d e y, Weighed leaf w g s d (.ok r a) ∧ r ≠ s ∧ WeighedTail leaf w sep g r e y ∧ c = d + e ∧
      x = consRes a y) ∨
    (∃ a, Weighed leaf w g s c (.ok s a) ∧ x = .err (.error s .separatedList)) ∨
    (∃ e, Weighed leaf w g s c (.err e) ∧ x = .err e)
  | _, .call N, s, c, x => Weighed leaf w (G.body N) s c x

theorem Weighed.inv {α : Type} {g : G α} {s : List σ} {c : Nat} {x : Res σ α}
    (h : Weighed leaf w g s c x) : Weighed.Inv leaf w g s c x := by
  cases h <;> simp only [Weighed.Inv] <;> grind

/-- Executions are deterministic, in outcome and in cost. -/
theorem Weighed.det {α : Type} {g : G α} {s : List σ} {c : Nat} {x : Res σ α}
    (h : Weighed leaf w g s c x) : ∀ c' x', Weighed leaf w g s c' x' → c' = c ∧ x' = x := by
  refine Weighed.rec
    (motive_1 := fun {α} g s c x _ => ∀ c' x', Weighed leaf w g s c' x' → c' = c ∧ x' = x)
    (motive_2 := fun {α β} sep g s c x _ =>
      ∀ c' x', WeighedTail leaf w sep g s c' x' → c' = c ∧ x' = x)
    ?_ ?_ ?_ ?_ ?_ ?_ ?_ ?_ ?_ ?_ ?_ ?_ ?_ ?_ ?_ ?_ ?_ ?_ ?_ ?_ ?_ ?_ ?_ ?_ ?_ ?_ ?_ ?_ ?_ ?_ h
  all_goals
    intros
    rename_i k
    first
    | have := Weighed.inv k
      simp only [Weighed.Inv] at this
      grind
    | cases k <;> grind

/-- The executions that are weighed are the executions. -/
theorem Weighed.runs {α : Type} {g : G α} {s : List σ} {c : Nat} {x : Res σ α} (h : Weighed leaf w g s c x) :
    (∀ t, w t ≤ 1) → ∃ n, Runs leaf g s n x ∧ c ≤ n := by
  intro hw
  refine Weighed.rec
    (motive_1 := fun {α} g s c x _ => ∃ n, Runs leaf g s n x ∧ c ≤ n)
    (motive_2 := fun {α β} sep g s c x _ => ∃ n, RunsTail leaf sep g s n x ∧ c ≤ n)
    ?_ ?_ ?_ ?_ ?_ ?_ ?_ ?_ ?_ ?_ ?_ ?_ ?_ ?_ ?_ ?_ ?_ ?_ ?_ ?_ ?_ ?_ ?_ ?_ ?_ ?_ ?_ ?_ ?_ ?_ h
  · exact ⟨0, .ret, Nat.le_refl _⟩
  · intro α l s; exact ⟨1, .leaf, hw s⟩
  · rintro α β g f s r a x c d _ _ ⟨n, h1, h2⟩ ⟨m, h3, h4⟩; exact ⟨_, .bindOk h1 h3, by omega⟩
  · rintro α β g f s e c _ ⟨n, h1, h2⟩; exact ⟨_, .bindErr h1, h2⟩
  · rintro α g h s r a c _ ⟨n, h1, h2⟩; exact ⟨_, .orElseOk h1, h2⟩
  · rintro α g h s p k x c d _ _ ⟨n, h1, h2⟩ ⟨m, h3, h4⟩; exact ⟨_, .orElseNext h1 h3, by omega⟩
  · rintro α g h s e c _ he ⟨n, h1, h2⟩; exact ⟨_, .orElseErr h1 he, h2⟩
  · exact ⟨0, .altEnd, Nat.le_refl _⟩
  · rintro α g s r a c _ ⟨n, h1, h2⟩; exact ⟨_, .optSome h1, h2⟩
  · rintro α g s p k c _ ⟨n, h1, h2⟩; exact ⟨_, .optNone h1, h2⟩
  · rintro α g s e c _ he ⟨n, h1, h2⟩; exact ⟨_, .optErr h1 he, h2⟩
  · rintro α g s p k c _ ⟨n, h1, h2⟩; exact ⟨_, .many0Stop h1, h2⟩
  · rintro α g s e c _ he ⟨n, h1, h2⟩; exact ⟨_, .many0Err h1 he, h2⟩
  · rintro α g s a c _ ⟨n, h1, h2⟩; exact ⟨_, .many0Empty h1, h2⟩
  · rintro α g s r a x c d _ hne _ ⟨n, h1, h2⟩ ⟨m, h3, h4⟩; exact ⟨_, .many0More h1 hne h3, by omega⟩
  · rintro α β sep g s p k c _ ⟨n, h1, h2⟩; exact ⟨_, .sepStop h1, h2⟩
  · rintro α β sep g s e c _ he ⟨n, h1, h2⟩; exact ⟨_, .sepErr h1 he, h2⟩
  · rintro α β sep g s a c _ ⟨n, h1, h2⟩; exact ⟨_, .sepEmpty h1, h2⟩
  · rintro α β sep g s r a x c d _ hne _ ⟨n, h1, h2⟩ ⟨m, h3, h4⟩; exact ⟨_, .sepMore h1 hne h3, by omega⟩
  · rintro α β sep g s e c _ ⟨n, h1, h2⟩; exact ⟨_, .sep1Err h1, h2⟩
  · rintro α β sep g s a c _ ⟨n, h1, h2⟩; exact ⟨_, .sep1Empty h1, h2⟩
  · rintro α β sep g s r a x c d _ hne _ ⟨n, h1, h2⟩ ⟨m, h3, h4⟩; exact ⟨_, .sep1More h1 hne h3, by omega⟩
  · rintro α N s x c _ ⟨n, h1, h2⟩; exact ⟨_, .call h1, h2⟩
  · rintro α β sep g s p k c _ ⟨n, h1, h2⟩; exact ⟨_, .noSep h1, h2⟩
  · rintro α β sep g s e c _ he ⟨n, h1, h2⟩; exact ⟨_, .sepErr h1 he, h2⟩
  · rintro α β sep g s b c _ ⟨n, h1, h2⟩; exact ⟨_, .sepEmpty h1, h2⟩
  · rintro α β sep g s r p b k c d _ hne _ ⟨n, h1, h2⟩ ⟨m, h3, h4⟩; exact ⟨_, .noElem h1 hne h3, by omega⟩
  · rintro α β sep g s r b e c d _ hne _ he ⟨n, h1, h2⟩ ⟨m, h3, h4⟩; exact ⟨_, .elemErr h1 hne h3 he, by omega⟩
  · rintro α β sep g s r b a c d _ hne _ ⟨n, h1, h2⟩ ⟨m, h3, h4⟩; exact ⟨_, .back h1 hne h3, by omega⟩
  · rintro α β sep g s r q b a x c d e _ hne _ hne2 _ ⟨n, h1, h2⟩ ⟨m, h3, h4⟩ ⟨o, h5, h6⟩
    exact ⟨_, .more h1 hne h3 hne2 h5, by omega⟩

/-- Each execution can be weighed. -/
theorem Weighed.of_runs {α : Type} {g : G α} {s : List σ} {c : Nat} {x : Res σ α} (h : Runs leaf g s c x)
    (w : List σ → Nat) : ∃ n, Weighed leaf w g s n x := by
  refine Runs.rec
    (motive_1 := fun {α} g s c x _ => ∃ n, Weighed leaf w g s n x)
    (motive_2 := fun {α β} sep g s c x _ => ∃ n, WeighedTail leaf w sep g s n x)
    ?_ ?_ ?_ ?_ ?_ ?_ ?_ ?_ ?_ ?_ ?_ ?_ ?_ ?_ ?_ ?_ ?_ ?_ ?_ ?_ ?_ ?_ ?_ ?_ ?_ ?_ ?_ ?_ ?_ ?_ h
  · exact ⟨0, .ret⟩
  · intro α l s; exact ⟨_, .leaf⟩
  · rintro α β g f s r a x c d _ _ ⟨n, h1⟩ ⟨m, h3⟩; exact ⟨_, .bindOk h1 h3⟩
  · rintro α β g f s e c _ ⟨n, h1⟩; exact ⟨_, .bindErr h1⟩
  · rintro α g h s r a c _ ⟨n, h1⟩; exact ⟨_, .orElseOk h1⟩
  · rintro α g h s p k x c d _ _ ⟨n, h1⟩ ⟨m, h3⟩; exact ⟨_, .orElseNext h1 h3⟩
  · rintro α g h s e c _ he ⟨n, h1⟩; exact ⟨_, .orElseErr h1 he⟩
  · exact ⟨0, .altEnd⟩
  · rintro α g s r a c _ ⟨n, h1⟩; exact ⟨_, .optSome h1⟩
  · rintro α g s p k c _ ⟨n, h1⟩; exact ⟨_, .optNone h1⟩
  · rintro α g s e c _ he ⟨n, h1⟩; exact ⟨_, .optErr h1 he⟩
  · rintro α g s p k c _ ⟨n, h1⟩; exact ⟨_, .many0Stop h1⟩
  · rintro α g s e c _ he ⟨n, h1⟩; exact ⟨_, .many0Err h1 he⟩
  · rintro α g s a c _ ⟨n, h1⟩; exact ⟨_, .many0Empty h1⟩
  · rintro α g s r a x c d _ hne _ ⟨n, h1⟩ ⟨m, h3⟩; exact ⟨_, .many0More h1 hne h3⟩
  · rintro α β sep g s p k c _ ⟨n, h1⟩; exact ⟨_, .sepStop h1⟩
  · rintro α β sep g s e c _ he ⟨n, h1⟩; exact ⟨_, .sepErr h1 he⟩
  · rintro α β sep g s a c _ ⟨n, h1⟩; exact ⟨_, .sepEmpty h1⟩
  · rintro α β sep g s r a x c d _ hne _ ⟨n, h1⟩ ⟨m, h3⟩; exact ⟨_, .sepMore h1 hne h3⟩
  · rintro α β sep g s e c _ ⟨n, h1⟩; exact ⟨_, .sep1Err h1⟩
  · rintro α β sep g s a c _ ⟨n, h1⟩; exact ⟨_, .sep1Empty h1⟩
  · rintro α β sep g s r a x c d _ hne _ ⟨n, h1⟩ ⟨m, h3⟩; exact ⟨_, .sep1More h1 hne h3⟩
  · rintro α N s x c _ ⟨n, h1⟩; exact ⟨_, .call h1⟩
  · rintro α β sep g s p k c _ ⟨n, h1⟩; exact ⟨_, .noSep h1⟩
  · rintro α β sep g s e c _ he ⟨n, h1⟩; exact ⟨_, .sepErr h1 he⟩
  · rintro α β sep g s b c _ ⟨n, h1⟩; exact ⟨_, .sepEmpty h1⟩
  · rintro α β sep g s r p b k c d _ hne _ ⟨n, h1⟩ ⟨m, h3⟩; exact ⟨_, .noElem h1 hne h3⟩
  · rintro α β sep g s r b e c d _ hne _ he ⟨n, h1⟩ ⟨m, h3⟩; exact ⟨_, .elemErr h1 hne h3 he⟩
  · rintro α β sep g s r b a c d _ hne _ ⟨n, h1⟩ ⟨m, h3⟩; exact ⟨_, .back h1 hne h3⟩
  · rintro α β sep g s r q b a x c d e _ hne _ hne2 _ ⟨n, h1⟩ ⟨m, h3⟩ ⟨o, h5⟩
    exact ⟨_, .more h1 hne h3 hne2 h5⟩

end Verif
