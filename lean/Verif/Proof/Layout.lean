import Verif.Proof.Sim

/-! # Leading trivia -/

namespace Verif
open Nom Spec

/-- The inputs `s₀` and `t₀` themselves, or equal remainders without leading trivia. -/
def Lead (s₀ t₀ : Str) (s t : Str) : Prop := (s = s₀ ∧ t = t₀) ∨ (s = t ∧ strip s = s)

theorem lead_leaf {s₀ t₀ : Str} (h₀ : strip s₀ = strip t₀) :
    ∀ α l s t, Lead s₀ t₀ s t →
      RR (Lead s₀ t₀) s t (charLeaf α l s) (charLeaf α l t) := by
  intro α l s t h
  have hst : strip s = strip t := by
    rcases h with ⟨rfl, rfl⟩ | ⟨rfl, _⟩
    · exact h₀
    · rfl
  have h1 := charLeaf_fine α l s
  have h2 := charLeaf_fine α l t
  have h3 : ∀ r v, charLeaf α l s = .ok r v → charLeaf α l t = .ok r v ∧ strip r = r := by
    intro r v e
    rw [charLeaf_ok_iff] at e
    obtain ⟨w, e', h1, h2, h3, rfl⟩ := e
    refine ⟨charLeaf_ok_iff.2 ⟨w, e', hst ▸ h1, h2, h3, rfl⟩, strip_strip _⟩
  have h4 : ∀ r v, charLeaf α l t = .ok r v → charLeaf α l s = .ok r v := by
    intro r v e
    rw [charLeaf_ok_iff] at e ⊢
    rwa [hst]
  revert h1 h2 h3 h4
  generalize charLeaf α l s = x
  generalize charLeaf α l t = y
  intro h1 h2 h3 h4
  cases x with
  | ok r v =>
    obtain ⟨rfl, h5⟩ := h3 r v rfl
    refine .ok (.inr ⟨rfl, h5⟩) h1.1 h2.1 ?_
    have := h1.2 rfl
    have := h2.2 rfl
    constructor <;> (rintro rfl; omega)
  | diverge => exact h1.elim
  | err e =>
    cases y with
    | ok r v => have := h4 r v rfl; cases this
    | diverge => exact .diverge
    | err e' =>
      cases e with
      | error p k => cases e' with
        | error p' k' => exact .error
        | _ => exact h2.elim
      | _ => exact h1.elim

theorem lead_sim {α : Type} {g : G α} {b : Bool} (hg : Guarded true g b) {s t : Str}
    (h : strip s = strip t) : RR (Lead s t) s t (g.parse s) (g.parse t) :=
  sim_fine charLeaf_fine charLeaf_fine (lead_leaf h) hg (.inl ⟨rfl, rfl⟩)

end Verif
