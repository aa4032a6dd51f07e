import Verif.Proof.Layout

/-! # The top level -/

namespace Verif
open Nom Spec

theorem guarded_definition : Guarded true G.definition true := inferInstance

theorem guarded_definitions : Guarded true G.definitions false := .many0 guarded_definition

theorem definition_suff : Suff G.definition.parse :=
  suff_of_fine (G.parse_fine guarded_definition)

theorem definitions_eq (s : Str) : G.definitions.parse s = many0 G.definition.parse s := rfl

/-- `Definitions::parse` always succeeds. -/
theorem definitions_ok (s : Str) : ∃ r ds, G.definitions.parse s = .ok r ds := by
  have hf := G.parse_fine guarded_definition
  induction hn : s.length using Nat.strongRecOn generalizing s with
  | ind n ih =>
    have h1 := hf s
    rw [definitions_eq, many0_eq definition_suff]
    revert h1
    cases e : G.definition.parse s with
    | ok r d =>
      intro h1
      have h2 := h1.2 rfl
      have h3 : r ≠ s := by rintro rfl; omega
      obtain ⟨r', ds, h4⟩ := ih _ (by omega) r rfl
      rw [definitions_eq] at h4
      simp only [if_neg h3, h4, consRes]
      exact ⟨_, _, rfl⟩
    | diverge => exact False.elim
    | err e' =>
      cases e' with
      | error p k => intro; exact ⟨_, _, rfl⟩
      | _ => exact False.elim

end Verif
