import Verif.Spec.BigStep
import Verif.Proof.Knot

/-! # The bounded interpreter agrees with the unbounded executions -/

namespace Verif
open Nom Spec

variable {σ : Type} {leaf : ∀ α, Leaf α → P σ α}

theorem consRes_ne_diverge {α : Type} {a : α} {x : Res σ (List α)}
    (h : consRes a x ≠ .diverge) : x ≠ .diverge := by
  rintro rfl; exact h rfl

theorem Runs.many0 {α : Type} [DecidableEq σ] {g : G α} {p : P σ α}
    (hp : ∀ s, p s ≠ .diverge → ∃ c, Runs leaf g s c (p s)) (n : Nat) (s : List σ)
    (h : many0Loop p n s ≠ .diverge) : ∃ c, Runs leaf (.many0 g) s c (many0Loop p n s) := by
  induction n generalizing s with
  | zero => simp [many0Loop] at h
  | succ n ih =>
    have hs := hp s
    simp only [many0Loop] at h ⊢
    cases e : p s with
    | diverge => simp [e] at h
    | err e' =>
      rw [e] at h hs
      obtain ⟨c, hc⟩ := hs (by simp)
      cases e' with
      | error q k => exact ⟨_, .many0Stop hc⟩
      | failure q k => exact ⟨_, .many0Err hc (by simp)⟩
      | incomplete => exact ⟨_, .many0Err hc (by simp)⟩
    | ok r a =>
      rw [e] at h hs
      obtain ⟨c, hc⟩ := hs (by simp)
      dsimp only at h ⊢
      split
      · next er => subst er; exact ⟨_, .many0Empty hc⟩
      · next er =>
        rw [if_neg er] at h
        obtain ⟨d, hd⟩ := ih r (consRes_ne_diverge h)
        exact ⟨_, .many0More hc er hd⟩

theorem Runs.tail {α β : Type} [DecidableEq σ] {g : G α} {p : P σ α} {sep : G β} {q : P σ β}
    (hp : ∀ s, p s ≠ .diverge → ∃ c, Runs leaf g s c (p s))
    (hq : ∀ s, q s ≠ .diverge → ∃ c, Runs leaf sep s c (q s)) (n : Nat) (s : List σ)
    (h : sepLoop q p n s ≠ .diverge) : ∃ c, RunsTail leaf sep g s c (sepLoop q p n s) := by
  induction n generalizing s with
  | zero => simp [sepLoop] at h
  | succ n ih =>
    have hs := hq s
    simp only [sepLoop] at h ⊢
    cases e : q s with
    | diverge => simp [e] at h
    | err e' =>
      rw [e] at h hs
      obtain ⟨c, hc⟩ := hs (by simp)
      cases e' with
      | error q k => exact ⟨_, .noSep hc⟩
      | failure q k => exact ⟨_, .sepErr hc (by simp)⟩
      | incomplete => exact ⟨_, .sepErr hc (by simp)⟩
    | ok r a =>
      rw [e] at h hs
      obtain ⟨c, hc⟩ := hs (by simp)
      dsimp only at h ⊢
      split
      · next er => subst er; exact ⟨_, .sepEmpty hc⟩
      · next er =>
        rw [if_neg er] at h
        have hs := hp r
        cases e2 : p r with
        | diverge => simp [e2] at h
        | err e' =>
          rw [e2] at h hs
          obtain ⟨d, hd⟩ := hs (by simp)
          cases e' with
          | error q k => exact ⟨_, .noElem hc er hd⟩
          | failure q k => exact ⟨_, .elemErr hc er hd (by simp)⟩
          | incomplete => exact ⟨_, .elemErr hc er hd (by simp)⟩
        | ok r2 a2 =>
          rw [e2] at h hs
          obtain ⟨d, hd⟩ := hs (by simp)
          dsimp only at h ⊢
          split
          · next er2 => subst er2; exact ⟨_, .back hc er hd⟩
          · next er2 =>
            rw [if_neg er2] at h
            obtain ⟨d', hd'⟩ := ih r2 (consRes_ne_diverge h)
            exact ⟨_, .more hc er hd er2 hd'⟩

theorem Runs.of_run [DecidableEq σ] {nt : ∀ α, NT α → P σ α}
    (hn : ∀ α N s, nt α N s ≠ .diverge → ∃ c, Runs leaf (.call N) s c (nt α N s))
    {α : Type} (g : G α) (s : List σ) (h : g.run leaf nt s ≠ .diverge) :
    ∃ c, Runs leaf g s c (g.run leaf nt s) := by
  induction g generalizing s with
  | ret a => exact ⟨_, .ret⟩
  | leaf l => exact ⟨_, .leaf⟩
  | bind g f ih1 ih2 =>
    have h1 := ih1 s
    simp only [G.run, Nom.seq] at h ⊢
    cases e : g.run leaf nt s with
    | diverge => simp [e] at h
    | err e' =>
      rw [e] at h1
      obtain ⟨c, hc⟩ := h1 (by simp)
      exact ⟨_, .bindErr hc⟩
    | ok r a =>
      rw [e] at h1 h
      obtain ⟨c, hc⟩ := h1 (by simp)
      obtain ⟨d, hd⟩ := ih2 a r h
      exact ⟨_, .bindOk hc hd⟩
  | orElse g g' ih1 ih2 =>
    have h1 := ih1 s
    simp only [G.run, Nom.orElse] at h ⊢
    cases e : g.run leaf nt s with
    | diverge => simp [e] at h
    | err e' =>
      rw [e] at h1 h
      obtain ⟨c, hc⟩ := h1 (by simp)
      cases e' with
      | error p k =>
        obtain ⟨d, hd⟩ := ih2 s h
        exact ⟨_, .orElseNext hc hd⟩
      | failure q k => exact ⟨_, .orElseErr hc (by simp)⟩
      | incomplete => exact ⟨_, .orElseErr hc (by simp)⟩
    | ok r a =>
      rw [e] at h1
      obtain ⟨c, hc⟩ := h1 (by simp)
      exact ⟨_, .orElseOk hc⟩
  | altEnd => exact ⟨_, .altEnd⟩
  | opt g ih =>
    have h1 := ih s
    simp only [G.run, Nom.opt] at h ⊢
    cases e : g.run leaf nt s with
    | diverge => simp [e] at h
    | err e' =>
      rw [e] at h1 h
      obtain ⟨c, hc⟩ := h1 (by simp)
      cases e' with
      | error p k => exact ⟨_, .optNone hc⟩
      | failure q k => exact ⟨_, .optErr hc (by simp)⟩
      | incomplete => exact ⟨_, .optErr hc (by simp)⟩
    | ok r a =>
      rw [e] at h1
      obtain ⟨c, hc⟩ := h1 (by simp)
      exact ⟨_, .optSome hc⟩
  | many0 g ih => exact Runs.many0 ih _ s h
  | separatedList sep g ih1 ih2 =>
    have h1 := ih2 s
    simp only [G.run, Nom.separatedList] at h ⊢
    cases e : g.run leaf nt s with
    | diverge => simp [e] at h
    | err e' =>
      rw [e] at h1 h
      obtain ⟨c, hc⟩ := h1 (by simp)
      cases e' with
      | error p k => exact ⟨_, .sepStop hc⟩
      | failure q k => exact ⟨_, .sepErr hc (by simp)⟩
      | incomplete => exact ⟨_, .sepErr hc (by simp)⟩
    | ok r a =>
      rw [e] at h1 h
      obtain ⟨c, hc⟩ := h1 (by simp)
      dsimp only at h ⊢
      split
      · next er => subst er; exact ⟨_, .sepEmpty hc⟩
      · next er =>
        rw [if_neg er] at h
        obtain ⟨d, hd⟩ := Runs.tail ih2 ih1 _ r (consRes_ne_diverge h)
        exact ⟨_, .sepMore hc er hd⟩
  | separatedNonemptyList sep g ih1 ih2 =>
    have h1 := ih2 s
    simp only [G.run, Nom.separatedNonemptyList] at h ⊢
    cases e : g.run leaf nt s with
    | diverge => simp [e] at h
    | err e' =>
      rw [e] at h1 h
      obtain ⟨c, hc⟩ := h1 (by simp)
      exact ⟨_, .sep1Err hc⟩
    | ok r a =>
      rw [e] at h1 h
      obtain ⟨c, hc⟩ := h1 (by simp)
      dsimp only at h ⊢
      split
      · next er => subst er; exact ⟨_, .sep1Empty hc⟩
      · next er =>
        rw [if_neg er] at h
        obtain ⟨d, hd⟩ := Runs.tail ih2 ih1 _ r (consRes_ne_diverge h)
        exact ⟨_, .sep1More hc er hd⟩
  | call n => exact hn _ n s h

theorem Runs.of_ntRun [DecidableEq σ] (n : Nat) : ∀ α N s, ntRun leaf n α N s ≠ .diverge →
    ∃ c, Runs leaf (.call N) s c (ntRun leaf n α N s) := by
  induction n with
  | zero => intro α N s h; simp [ntRun] at h
  | succ n ih =>
    intro α N s h
    obtain ⟨c, hc⟩ := Runs.of_run ih (G.body N) s h
    exact ⟨c, .call hc⟩

/-- Executions exist. -/
theorem Runs.parse [DecidableEq σ] (hl : ∀ α l u, Fine true u (leaf α l u)) {α : Type} {g : G α}
    {b : Bool} (hg : Guarded true g b) (s : List σ) : ∃ c, Runs leaf g s c (g.parseWith leaf s) := by
  have h := run_eq_parseWith hl hg (n := s.length + 1) (s := s) (by omega)
  rw [← h]
  apply Runs.of_run (Runs.of_ntRun _)
  rw [h]
  have := parseWith_fine hl hg s
  intro e; rw [e] at this; exact this

/-- What the last rule of an execution must have been. -/
def Runs.Inv (leaf : ∀ α, Leaf α → P σ α) : {α : Type} → G α → List σ → Nat → Res σ α → Prop
  | _, .ret a, s, c, x => c = 0 ∧ x = .ok s a
  | _, .leaf l, s, c, x => c = 1 ∧ x = leaf _ l s
  | _, .bind g f, s, c, x =>
    (∃ r a d e, Runs leaf g s d (.ok r a) ∧ Runs leaf (f a) r e x ∧ c = d + e) ∨
    (∃ e, Runs leaf g s c (.err e) ∧ x = .err e)
  | _, .orElse g h, s, c, x =>
    (∃ r a, Runs leaf g s c (.ok r a) ∧ x = .ok r a) ∨
    (∃ p k d e, Runs leaf g s d (.err (.error p k)) ∧ Runs leaf h s e x ∧ c = d + e) ∨
    (∃ e, (∀ p k, e ≠ .error p k) ∧ Runs leaf g s c (.err e) ∧ x = .err e)
  | _, .altEnd, s, c, x => c = 0 ∧ x = .err (.error s .alt)
  | _, .opt g, s, c, x =>
    (∃ r a, Runs leaf g s c (.ok r a) ∧ x = .ok r (some a)) ∨
    (∃ p k, Runs leaf g s c (.err (.error p k)) ∧ x = .ok s none) ∨
    (∃ e, (∀ p k, e ≠ .error p k) ∧ Runs leaf g s c (.err e) ∧ x = .err e)
  | _, .many0 g, s, c, x =>
    (∃ r a d e y, Runs leaf g s d (.ok r a) ∧ r ≠ s ∧ Runs leaf (.many0 g) r e y ∧ c = d + e ∧
      x = consRes a y) ∨
    (∃ a, Runs leaf g s c (.ok s a) ∧ x = .err (.error s .many0)) ∨
    (∃ p k, Runs leaf g s c (.err (.error p k)) ∧ x = .ok s []) ∨
    (∃ e, (∀ p k, e ≠ .error p k) ∧ Runs leaf g s c (.err e) ∧ x = .err e)
  | _, .separatedList sep g, s, c, x =>
    (∃ r a d e y, Runs leaf g s d (.ok r a) ∧ r ≠ s ∧ RunsTail leaf sep g r e y ∧ c = d + e ∧
      x = consRes a y) ∨
    (∃ a, Runs leaf g s c (.ok s a) ∧ x = .err (.error s .separatedList)) ∨
    (∃ p k, Runs leaf g s c (.err (.error p k)) ∧ x = .ok s []) ∨
    (∃ e, (∀ p k, e ≠ .error p k) ∧ Runs leaf g s c (.err e) ∧ x = .err e)
  | _, .separatedNonemptyList sep g, s, c, x =>
    (∃ r a d e y, Runs leaf g s d (.ok r a) ∧ r ≠ s ∧ RunsTail leaf sep g r e y ∧ c = d + e ∧
      x = consRes a y) ∨
    (∃ a, Runs leaf g s c (.ok s a) ∧ x = .err (.error s .separatedList)) ∨
    (∃ e, Runs leaf g s c (.err e) ∧ x = .err e)
  | _, .call N, s, c, x => Runs leaf (G.body N) s c x

theorem Runs.inv {α : Type} {g : G α} {s : List σ} {c : Nat} {x : Res σ α}
    (h : Runs leaf g s c x) : Runs.Inv leaf g s c x := by
  cases h <;> simp only [Runs.Inv] <;> grind

/-- Executions are deterministic, in outcome and in cost. -/
theorem Runs.det {α : Type} {g : G α} {s : List σ} {c : Nat} {x : Res σ α}
    (h : Runs leaf g s c x) : ∀ c' x', Runs leaf g s c' x' → c' = c ∧ x' = x := by
  refine Runs.rec
    (motive_1 := fun {α} g s c x _ => ∀ c' x', Runs leaf g s c' x' → c' = c ∧ x' = x)
    (motive_2 := fun {α β} sep g s c x _ =>
      ∀ c' x', RunsTail leaf sep g s c' x' → c' = c ∧ x' = x)
    ?_ ?_ ?_ ?_ ?_ ?_ ?_ ?_ ?_ ?_ ?_ ?_ ?_ ?_ ?_ ?_ ?_ ?_ ?_ ?_ ?_ ?_ ?_ ?_ ?_ ?_ ?_ ?_ ?_ ?_ h
  all_goals
    intros
    rename_i k
    first
    | have := Runs.inv k
      simp only [Runs.Inv] at this
      grind
    | cases k <;> grind

end Verif
