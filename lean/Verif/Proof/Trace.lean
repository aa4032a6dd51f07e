import Verif.Spec.Trace
import Verif.Proof.VisitsSum

/-! # Executions with the terminals that are tried -/

namespace Verif
open Nom Spec

variable {σ : Type} {leaf : ∀ α, Leaf α → P σ α} {w : List σ → Nat}

/-- What the last rule of an execution must have been. -/
def Spec.Traced.Inv (leaf : ∀ α, Leaf α → P σ α) : {α : Type} → G α → List σ → List (Attempt σ) → Res σ α → Prop
  | _, .ret a, s, c, x => c = [] ∧ x = .ok s a
  | _, .leaf l, s, c, x => c = [⟨l, s⟩] ∧ x = leaf _ l s
  | _, .bind g f, s, c, x =>
    (∃ r a d e, Traced leaf g s d (.ok r a) ∧ Traced leaf (f a) r e x ∧ c = d ++ e) ∨
    (∃ e, Traced leaf g s c (.err e) ∧ x = .err e)
  | _, .orElse g h, s, c, x =>
    (∃ r a, Traced leaf g s c (.ok r a) ∧ x = .ok r a) ∨
    (∃ p k d e, Traced leaf g s d (.err (.error p k)) ∧ Traced leaf h s e x ∧ c = d ++ e) ∨
    (∃ e, (∀ p k, e ≠ .error p k) ∧ Traced leaf g s c (.err e) ∧ x = .err e)
  | _, .altEnd, s, c, x => c = [] ∧ x = .err (.error s .alt)
  | _, .opt g, s, c, x =>
    (∃ r a, Traced leaf g s c (.ok r a) ∧ x = .ok r (some a)) ∨
    (∃ p k, Traced leaf g s c (.err (.error p k)) ∧ x = .ok s none) ∨
    (∃ e, (∀ p k, e ≠ .error p k) ∧ Traced leaf g s c (.err e) ∧ x = .err e)
  | _, .many0 g, s, c, x =>
    (∃ r a d e y, Traced leaf g s d (.ok r a) ∧ r ≠ s ∧ Traced leaf (.many0 g) r e y ∧ c = d ++ e ∧
      x = consRes a y) ∨
    (∃ a, Traced leaf g s c (.ok s a) ∧ x = .err (.error s .many0)) ∨
    (∃ p k, Traced leaf g s c (.err (.error p k)) ∧ x = .ok s []) ∨
    (∃ e, (∀ p k, e ≠ .error p k) ∧ Traced leaf g s c (.err e) ∧ x = .err e)
  | _, .separatedList sep g, s, c, x =>
    (∃ r a d e y, Traced leaf g s d (.ok r a) ∧ r ≠ s ∧ TracedTail leaf sep g r e y ∧ c = d ++ e ∧
      x = consRes a y) ∨
    (∃ a, Traced leaf g s c (.ok s a) ∧ x = .err (.error s .separatedList)) ∨
    (∃ p k, Traced leaf g s c (.err (.error p k)) ∧ x = .ok s []) ∨
    (∃ e, (∀ p k, e ≠ .error p k) ∧ Traced leaf g s c (.err e) ∧ x = .err e)
  | _, .separatedNonemptyList sep g, s, c, x =>
    (∃ r a d e y, Traced leaf g s d (.ok r a) ∧ r ≠ s ∧ TracedTail leaf sep g r e y ∧ c = d ++ e ∧
      x = consRes a y) ∨
    (∃ a, Traced leaf g s c (.ok s a) ∧ x = .err (.error s .separatedList)) ∨
    (∃ e, Traced leaf g s c (.err e) ∧ x = .err e)
  | _, .call N, s, c, x => Traced leaf (G.body N) s c x

theorem Spec.Traced.inv {α : Type} {g : G α} {s : List σ} {c : List (Attempt σ)} {x : Res σ α}
    (h : Traced leaf g s c x) : Traced.Inv leaf g s c x := by
  cases h <;> simp only [Traced.Inv] <;> grind

/-- Executions are deterministic, in outcome and in cost. -/
theorem Spec.Traced.det {α : Type} {g : G α} {s : List σ} {c : List (Attempt σ)} {x : Res σ α}
    (h : Traced leaf g s c x) : ∀ c' x', Traced leaf g s c' x' → c' = c ∧ x' = x := by
  refine Traced.rec
    (motive_1 := fun {α} g s c x _ => ∀ c' x', Traced leaf g s c' x' → c' = c ∧ x' = x)
    (motive_2 := fun {α β} sep g s c x _ =>
      ∀ c' x', TracedTail leaf sep g s c' x' → c' = c ∧ x' = x)
    ?_ ?_ ?_ ?_ ?_ ?_ ?_ ?_ ?_ ?_ ?_ ?_ ?_ ?_ ?_ ?_ ?_ ?_ ?_ ?_ ?_ ?_ ?_ ?_ ?_ ?_ ?_ ?_ ?_ ?_ h
  all_goals
    intros
    rename_i k
    first
    | have := Traced.inv k
      simp only [Traced.Inv] at this
      grind
    | cases k <;> grind

/-- Each execution can be traced. -/
theorem Spec.Traced.of_runs {α : Type} {g : G α} {s : List σ} {c : Nat} {x : Res σ α} (h : Runs leaf g s c x) : ∃ n, Traced leaf g s n x := by
  refine Runs.rec
    (motive_1 := fun {α} g s c x _ => ∃ n, Traced leaf g s n x)
    (motive_2 := fun {α β} sep g s c x _ => ∃ n, TracedTail leaf sep g s n x)
    ?_ ?_ ?_ ?_ ?_ ?_ ?_ ?_ ?_ ?_ ?_ ?_ ?_ ?_ ?_ ?_ ?_ ?_ ?_ ?_ ?_ ?_ ?_ ?_ ?_ ?_ ?_ ?_ ?_ ?_ h
  · exact ⟨[], .ret⟩
  · intro α l s; exact ⟨_, .leaf⟩
  · rintro α β g f s r a x c d _ _ ⟨n, h1⟩ ⟨m, h3⟩; exact ⟨_, .bindOk h1 h3⟩
  · rintro α β g f s e c _ ⟨n, h1⟩; exact ⟨_, .bindErr h1⟩
  · rintro α g h s r a c _ ⟨n, h1⟩; exact ⟨_, .orElseOk h1⟩
  · rintro α g h s p k x c d _ _ ⟨n, h1⟩ ⟨m, h3⟩; exact ⟨_, .orElseNext h1 h3⟩
  · rintro α g h s e c _ he ⟨n, h1⟩; exact ⟨_, .orElseErr h1 he⟩
  · exact ⟨[], .altEnd⟩
  · rintro α g s r a c _ ⟨n, h1⟩; exact ⟨_, .optSome h1⟩
  · rintro α g s p k c _ ⟨n, h1⟩; exact ⟨_, .optNone h1⟩
  · rintro α g s e c _ he ⟨n, h1⟩; exact ⟨_, .optErr h1 he⟩
  · rintro α g s p k c _ ⟨n, h1⟩; exact ⟨_, .many0Stop h1⟩
  · rintro α g s e c _ he ⟨n, h1⟩; exact ⟨_, .many0Err h1 he⟩
  · rintro α g s a c _ ⟨n, h1⟩; exact ⟨_, .many0Empty h1⟩
  · rintro α g s r a x c d _ hne _ ⟨n, h1⟩ ⟨m, h3⟩; exact ⟨_, .many0More h1 hne h3⟩
  · rintro α β sep g s p k c _ ⟨n, h1⟩; exact ⟨_, .sepStop h1⟩
  · rintro α β sep g s e c _ he ⟨n, h1⟩; exact ⟨_, .sepErr h1 he⟩
  · rintro α β sep g s a c _ ⟨n, h1⟩; exact ⟨_, .sepEmpty h1⟩
  · rintro α β sep g s r a x c d _ hne _ ⟨n, h1⟩ ⟨m, h3⟩; exact ⟨_, .sepMore h1 hne h3⟩
  · rintro α β sep g s e c _ ⟨n, h1⟩; exact ⟨_, .sep1Err h1⟩
  · rintro α β sep g s a c _ ⟨n, h1⟩; exact ⟨_, .sep1Empty h1⟩
  · rintro α β sep g s r a x c d _ hne _ ⟨n, h1⟩ ⟨m, h3⟩; exact ⟨_, .sep1More h1 hne h3⟩
  · rintro α N s x c _ ⟨n, h1⟩; exact ⟨_, .call h1⟩
  · rintro α β sep g s p k c _ ⟨n, h1⟩; exact ⟨_, .noSep h1⟩
  · rintro α β sep g s e c _ he ⟨n, h1⟩; exact ⟨_, .sepErr h1 he⟩
  · rintro α β sep g s b c _ ⟨n, h1⟩; exact ⟨_, .sepEmpty h1⟩
  · rintro α β sep g s r p b k c d _ hne _ ⟨n, h1⟩ ⟨m, h3⟩; exact ⟨_, .noElem h1 hne h3⟩
  · rintro α β sep g s r b e c d _ hne _ he ⟨n, h1⟩ ⟨m, h3⟩; exact ⟨_, .elemErr h1 hne h3 he⟩
  · rintro α β sep g s r b a c d _ hne _ ⟨n, h1⟩ ⟨m, h3⟩; exact ⟨_, .back h1 hne h3⟩
  · rintro α β sep g s r q b a x c d e _ hne _ hne2 _ ⟨n, h1⟩ ⟨m, h3⟩ ⟨o, h5⟩
    exact ⟨_, .more h1 hne h3 hne2 h5⟩

theorem Spec.Traced.weighed {α : Type} {g : G α} {s : List σ} {L : List (Attempt σ)} {x : Res σ α} (h : Traced leaf g s L x)
    (w : List σ → Nat) : Weighed leaf w g s (L.map fun a => w a.place).sum x := by
  refine Traced.rec
    (motive_1 := fun {α} g s L x _ => Weighed leaf w g s (L.map fun a => w a.place).sum x)
    (motive_2 := fun {α β} sep g s L x _ => WeighedTail leaf w sep g s (L.map fun a => w a.place).sum x)
    ?_ ?_ ?_ ?_ ?_ ?_ ?_ ?_ ?_ ?_ ?_ ?_ ?_ ?_ ?_ ?_ ?_ ?_ ?_ ?_ ?_ ?_ ?_ ?_ ?_ ?_ ?_ ?_ ?_ ?_ h
  · exact .ret
  · intro α l s; simpa using Weighed.leaf
  · rintro α β g f s r a x c d _ _ h1 h3; rw [List.map_append, List.sum_append]; exact .bindOk h1 h3
  · rintro α β g f s e c _ h1; exact .bindErr h1
  · rintro α g h s r a c _ h1; exact .orElseOk h1
  · rintro α g h s p k x c d _ _ h1 h3; rw [List.map_append, List.sum_append]; exact .orElseNext h1 h3
  · rintro α g h s e c _ he h1; exact .orElseErr h1 he
  · exact .altEnd
  · rintro α g s r a c _ h1; exact .optSome h1
  · rintro α g s p k c _ h1; exact .optNone h1
  · rintro α g s e c _ he h1; exact .optErr h1 he
  · rintro α g s p k c _ h1; exact .many0Stop h1
  · rintro α g s e c _ he h1; exact .many0Err h1 he
  · rintro α g s a c _ h1; exact .many0Empty h1
  · rintro α g s r a x c d _ hne _ h1 h3; rw [List.map_append, List.sum_append]; exact .many0More h1 hne h3
  · rintro α β sep g s p k c _ h1; exact .sepStop h1
  · rintro α β sep g s e c _ he h1; exact .sepErr h1 he
  · rintro α β sep g s a c _ h1; exact .sepEmpty h1
  · rintro α β sep g s r a x c d _ hne _ h1 h3; rw [List.map_append, List.sum_append]; exact .sepMore h1 hne h3
  · rintro α β sep g s e c _ h1; exact .sep1Err h1
  · rintro α β sep g s a c _ h1; exact .sep1Empty h1
  · rintro α β sep g s r a x c d _ hne _ h1 h3; rw [List.map_append, List.sum_append]; exact .sep1More h1 hne h3
  · rintro α N s x c _ h1; exact .call h1
  · rintro α β sep g s p k c _ h1; exact .noSep h1
  · rintro α β sep g s e c _ he h1; exact .sepErr h1 he
  · rintro α β sep g s b c _ h1; exact .sepEmpty h1
  · rintro α β sep g s r p b k c d _ hne _ h1 h3; rw [List.map_append, List.sum_append]; exact .noElem h1 hne h3
  · rintro α β sep g s r b e c d _ hne _ he h1 h3; rw [List.map_append, List.sum_append]; exact .elemErr h1 hne h3 he
  · rintro α β sep g s r b a c d _ hne _ h1 h3; rw [List.map_append, List.sum_append]; exact .back h1 hne h3
  · rintro α β sep g s r q b a x c d e _ hne _ hne2 _ h1 h3 h5
    rw [List.map_append, List.sum_append, List.map_append, List.sum_append]; exact .more h1 hne h3 hne2 h5

theorem Spec.Traced.runs {α : Type} {g : G α} {s : Str} {L : List (Attempt Char)} {x : Res Char α} (h : Traced charLeaf g s L x) :
    Runs charLeaf g s L.length x := by
  have h1 := Visits.weighed_one.1 (h.weighed fun _ => 1)
  rwa [List.map_const', List.sum_replicate_nat, Nat.mul_one] at h1

end Verif
