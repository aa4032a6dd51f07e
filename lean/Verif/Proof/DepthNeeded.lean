import Verif.Proof.DepthOf
import Verif.Proof.Print
import Verif.Proof.Append
import Verif.Proof.Prefix

/-! # Closing brackets before opening ones -/

namespace Verif.Depths
open Nom Spec Source Properties Sizes

/-- `sequence<sequence<...any...>>` -/
def sequences : Nat → Ty
  | 0 => .single .any
  | n + 1 => .single (.nonAny (.sequence (sequences n) false))

theorem sequences_wf : ∀ n, WfType (sequences n)
  | 0 => by simp [sequences, WfType, WfSingleType]
  | n + 1 => by simpa [sequences, WfType, WfSingleType, WfNonAnyType] using sequences_wf n

theorem sequences_print (n : Nat) : printType (sequences (n + 1)) = [c!"sequence", c!"<"] ++ printType (sequences n) ++ [c!">"] := by
  simp [sequences, printType, printSingleType, printNonAnyType, printOpt]

theorem sequences_depth : ∀ n, n < (typeVal (sequences n)).depth
  | 0 => depth_pos _
  | n + 1 => by
    have := sequences_depth n
    simp [sequences, typeVal, singleTypeVal, nonAnyTypeVal]
    omega

theorem sequences_nest : ∀ n e, nest (spaced (printType (sequences n)) ++ e) ≤ max n (nest e)
  | 0, e => by
    have : nest (c!"any " ++ e) = nest e := nest_plains (by unfold NoBracket; decide) e
    simp only [sequences, printType, printSingleType, spaced, List.append_nil] at *
    exact Nat.le_trans (Nat.le_of_eq this) (Nat.le_max_right _ _)
  | n + 1, e => by
    have h1 := sequences_nest n (c!"> " ++ e)
    have h2 : nest (c!"> " ++ e) = nest e - 1 := by simp [nest, nesting]
    have h3 : ∀ x : Str, nest (c!"sequence < " ++ x) = nest x + 1 := fun x => by simp [nest, nesting]
    rw [sequences_print, spaced_append, spaced_append]
    have h4 := h3 (spaced (printType (sequences n)) ++ (c!"> " ++ e))
    simp only [spaced, List.append_assoc, List.cons_append, List.nil_append] at *
    omega

theorem sequences_parse (n : Nat) : G.type.parse (spaced (printType (sequences n))) = .ok [] (sequences n) :=
  (C47_text (.inl .type) _ _).2 ⟨[], _, _, rfl, .nil, pr_type _ (sequences_wf n), text_spaced _⟩

theorem sequences_head (n : Nat) : ∃ c x, spaced (printType (sequences n)) = c :: x ∧ (c = 'a' ∨ c = 's') := by
  cases n with
  | zero => exact ⟨_, _, rfl, .inl rfl⟩
  | succ n => rw [sequences_print]; exact ⟨_, _, rfl, .inr rfl⟩

def closers (k : Nat) (s : Str) : Str := List.replicate k ')' ++ s

theorem closers_nest (k : Nat) (s : Str) : nest (closers k s) = nest s - k := by
  induction k with
  | zero => rfl
  | succ k ih =>
    have : nest (')' :: closers k s) = nest (closers k s) - 1 := by simp [nest, nesting]
    change nest (')' :: closers k s) = _
    omega

theorem strip_plain {c : Char} (hc : c ∈ [')', 'a', 's']) (s : Str) : strip (c :: s) = c :: s := by
  refine strip_of_noTrivia fun t r h ht => ?_
  cases ht with
  | nil => rfl
  | white hw _ =>
    simp at h
    rw [h.1] at hc
    simp at hw hc
    rcases hc with rfl | rfl | rfl <;> simp at hw
  | line _ _ =>
    simp at h
    rw [h.1] at hc
    simp at hc
  | block _ _ =>
    simp at h
    rw [h.1] at hc
    simp at hc

theorem closers_parse (k : Nat) {s : Str} (hs : ∃ c x, s = c :: x ∧ (c = 'a' ∨ c = 's')) :
    (G.many0 (G.punct .closeParen)).parse (closers k s) = .ok s (List.replicate k ()) := by
  have hp := suff_of (.punct .closeParen)
  obtain ⟨c, x, rfl, hc⟩ := hs
  have hx : strip (c :: x) = c :: x := strip_plain (by rcases hc with rfl | rfl <;> simp) x
  refine (many0_ok_iff hp).2 ⟨?_, charLeaf_fails (l := .punct .closeParen) fun w e v h1 h2 h3 => ?_⟩
  · induction k with
    | zero => exact .nil
    | succ k ih =>
      refine Chain.cons (m := closers k (c :: x)) ((charLeaf_ok_iff (l := .punct .closeParen)).2
        ⟨c!")", closers k (c :: x), strip_plain (by simp) _, rfl, trivial, ?_⟩) ?_ ih
      · cases k with
        | zero => exact hx.symm
        | succ k => exact (strip_plain (by simp) _).symm
      · intro h
        have := congrArg List.length h
        simp [closers] at this
  · rw [hx] at h1
    have h2 : w = c!")" := h2
    subst h2
    rcases hc with rfl | rfl <;> simp at h1

end Verif.Depths
