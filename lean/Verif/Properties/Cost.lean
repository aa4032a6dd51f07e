import Verif.Proof.Cost
import Verif.Proof.Weights
import Verif.Properties.Robustness

/-!
# C35: how many terminals are tried

`Runs charLeaf g s c x` (`Verif/Spec/BigStep.lean`) says that the parser `g` run on `s` tries `c` terminals. Every
alternative of `alt!` starts again from the beginning, so the number is not linear in the input.
-/

namespace Verif.Properties
open Nom Spec

/-- Backtracking is exponential: the text of `10 * n + 22` characters `nestedDoc n` is accepted, and any execution of
the parser on it tries at least `2 ^ n` terminals. -/
theorem C35_exponential (n : Nat) :
    (nestedDoc n).length = 10 * n + 22 ∧ (∃ d, weedleParse (nestedDoc n) = .ok [d]) ∧
      (∃ c x, Runs charLeaf G.definitions (nestedDoc n) c x) ∧
      ∀ c x, Runs charLeaf G.definitions (nestedDoc n) c x → 2 ^ n ≤ c := by
  refine ⟨nestedDoc_length n, ⟨_, (C03_ok_iff _ _).2 ((C34_definitions _ _ _).2
    ⟨.cons (nestedDoc_definition n) (by simp [nestedDoc]) .nil, ?_⟩)⟩, ?_, ?_⟩
  · exact ⟨_, _, rfl⟩
  · obtain ⟨c, hc⟩ := Runs.parse charLeaf_fine guarded_definitions (nestedDoc n)
    exact ⟨c, _, hc⟩
  · intro c x h
    obtain ⟨d, hd, ha⟩ := nestedDoc_attrs n
    have hdef : ∀ c x, Runs charLeaf G.definition (nestedDoc n) c x → 2 ^ n ≤ c := by
      intro c x h
      have hcb : ∀ c x, Runs charLeaf G.callbackDefinition (nestedDoc n) c x → 2 ^ n ≤ c := by
        intro c x h
        have := Runs.inv h
        simp only [Runs.Inv] at this
        rcases this with ⟨r, a, d', e, h1, h2, rfl⟩ | ⟨e, h1, -⟩
        · have := (Runs.det h1 _ _ ha).1
          omega
        · have := (Runs.det h1 _ _ ha).2
          simp at this
      have := Runs.inv h
      simp only [Runs.Inv] at this
      rcases this with ⟨r, a, h1, -⟩ | ⟨p, k', d, e, h1, h2, rfl⟩ | ⟨e, -, h1, -⟩
      · exact hcb _ _ h1
      · have := hcb _ _ h1
        omega
      · exact hcb _ _ h1
    have := Runs.inv h
    simp only [Runs.Inv] at this
    rcases this with ⟨r, a, d, e, y, h1, h3, h4, rfl, -⟩ | ⟨a, h1, -⟩ | ⟨p, kk, h1, -⟩ | ⟨e, -, h1, -⟩
    · have := hdef _ _ h1
      omega
    all_goals exact hdef _ _ h1

/-- `nestedDoc 2` is what one would write by hand. -/
example : nestedDoc 2 = c!"[A([A([A(T...x)]T...x)]T...x)]typedef T x;" := by rfl

/-- The number of terminals tried on a document is never worse than exponential. -/
theorem C35_document (s : Str) (c : Nat) (x : Res Char (List Definition)) (h : Runs charLeaf G.definitions s c x) :
    c ≤ 43260 * 408 ^ s.length :=
  (Weigh.many0 guarded_definition (inferInstance : Weigh false G.definition _)).bounded (by decide) s
    (cheap (by decide) weigh_body _) c x h

/-- Such an execution exists for each text. -/
example (s : Str) : ∃ c x, Runs charLeaf G.definitions s c x ∧ c ≤ 43260 * 408 ^ s.length := by
  obtain ⟨c, hc⟩ := Runs.parse charLeaf_fine guarded_definitions s
  exact ⟨c, _, hc, C35_document s c _ hc⟩

/-- The same holds for each type implementing `Parse`. -/
theorem C35_type {α : Type} {g : G α} {b : Bool} (hg : IsType g b) :
    ∃ w, ∀ (s : Str) (c : Nat) (x : Res Char α), Runs charLeaf g s c x → c ≤ w * 408 ^ s.length := by
  obtain ⟨w, hw⟩ := hg.weigh
  refine ⟨w * 408, fun s c x h => ?_⟩
  have := hw.bounded (K := 408) (by decide) s (cheap (by decide) weigh_body _) c x h
  rw [Nat.mul_assoc, Nat.mul_comm 408]
  exact this

example : ∃ w, ∀ (s : Str) (c : Nat) (x : Res Char Argument), Runs charLeaf G.argument s c x → c ≤ w * 408 ^ s.length :=
  C35_type .argument

end Verif.Properties
