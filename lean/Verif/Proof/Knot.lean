import Verif.Proof.GuardedAll
import Verif.Proof.Leaf
import Verif.Model.Types

/-! # The recursive knot -/

namespace Verif
open Nom

section
variable {σ α : Type} [DecidableEq σ] {leaf : ∀ α, Leaf α → P σ α}

theorem ntRun_fine (hl : ∀ α l u, Fine true u (leaf α l u)) {n : Nat} :
    ∀ (α : Type) (N : NT α) (s : List σ), s.length < n →
      Fine true s (ntRun leaf n α N s) ∧
      ∀ m, s.length < m → ntRun leaf m α N s = ntRun leaf n α N s := by
  induction n with
  | zero => intros; omega
  | succ n ih =>
    intro α N s hs
    have hb := Guarded.body N
    refine ⟨(hb.fine hl (nt' := ntRun leaf n) (k := n) (fun _ _ u hu => ⟨(ih _ _ u hu).1, rfl⟩) s
      (by simp [Inv]; omega)).1, ?_⟩
    intro m hm
    obtain ⟨m, rfl⟩ : ∃ k, m = k + 1 := ⟨m - 1, by omega⟩
    refine (hb.fine hl (nt := ntRun leaf n) (nt' := ntRun leaf m) (k := s.length)
      (fun _ _ u hu => ⟨(ih _ _ u (by omega)).1, (ih _ _ u (by omega)).2 m (by omega)⟩) s
      (by simp [Inv])).2

theorem ntLim_fine (hl : ∀ α l u, Fine true u (leaf α l u)) (α : Type) (N : NT α) (s : List σ) :
    Fine true s (ntLim leaf α N s) := (ntRun_fine hl α N s (by omega)).1

theorem ntRun_eq (hl : ∀ α l u, Fine true u (leaf α l u)) {n : Nat} {N : NT α} {s : List σ}
    (hn : s.length < n) : ntRun leaf n α N s = ntLim leaf α N s :=
  (ntRun_fine hl α N s (by omega)).2 n hn

/-- The recursive parsers are a fixed point of their definitions. -/
theorem ntLim_eq (hl : ∀ α l u, Fine true u (leaf α l u)) (N : NT α) (s : List σ) :
    ntLim leaf α N s = (G.body N).parseWith leaf s := by
  refine ((Guarded.body N).fine hl (nt := ntLim leaf) (nt' := ntRun leaf s.length) (k := s.length)
    (fun _ _ u hu => ⟨ntLim_fine hl _ _ u, ntRun_eq hl hu⟩) s (by simp [Inv])).2

theorem parseWith_fine (hl : ∀ α l u, Fine true u (leaf α l u)) {g : G α} {st : Bool}
    (hg : Guarded true g st) (s : List σ) : Fine st s (g.parseWith leaf s) :=
  (hg.fine hl (nt := ntLim leaf) (nt' := ntLim leaf) (k := s.length + 1)
    (fun _ _ u _ => ⟨ntLim_fine hl _ _ u, rfl⟩) s (by simp [Inv])).1

theorem run_eq_parseWith (hl : ∀ α l u, Fine true u (leaf α l u)) {g : G α} {st : Bool}
    (hg : Guarded true g st) {n : Nat} {s : List σ} (hn : s.length < n) :
    g.run leaf (ntRun leaf n) s = g.parseWith leaf s :=
  (hg.fine hl (nt := ntLim leaf) (nt' := ntRun leaf n) (k := s.length + 1)
    (fun _ _ u hu => ⟨ntLim_fine hl _ _ u, ntRun_eq hl (by omega)⟩) s (by simp [Inv])).2

end

set_option synthInstance.maxSize 2000 in
theorem IsType.guarded {α : Type} {g : G α} {b : Bool} (h : IsType g b) : Guarded true g b := by
  induction h with
  | option _ ih => exact .opt ih
  | vec _ ih => exact .many0 ih
  | @pair _ _ g h b b' _ _ ih1 ih2 =>
    cases b with
    | true => exact .bindT ih1 fun _ => (.bindF ih2.toFalse fun _ => .ret)
    | false =>
      refine .bindF ih1 fun _ => ?_
      cases b' with
      | true => exact .bindT ih2 fun _ => .ret
      | false => exact .bindF ih2 fun _ => .ret
  | @triple _ _ _ g h i b b' b'' _ _ _ ih1 ih2 ih3 =>
    cases b with
    | true =>
      exact .bindT ih1 fun _ => (.bindF ih2.toFalse fun _ => .bindF ih3.toFalse fun _ => .ret)
    | false =>
      refine .bindF ih1 fun _ => ?_
      cases b' with
      | true => exact .bindT ih2 fun _ => (.bindF ih3.toFalse fun _ => .ret)
      | false =>
        refine .bindF ih2 fun _ => ?_
        cases b'' with
        | true => exact .bindT ih3 fun _ => .ret
        | false => exact .bindF ih3 fun _ => .ret
  | _ => infer_instance

/-- Every `T::parse` behaves. -/
theorem IsType.fine {α : Type} {g : G α} {b : Bool} (h : IsType g b) (s : Str) :
    Fine b s (g.parse s) := parseWith_fine charLeaf_fine h.guarded s

theorem G.parse_fine {α : Type} {g : G α} {b : Bool} (h : Guarded true g b) (s : Str) :
    Fine b s (g.parse s) := parseWith_fine charLeaf_fine h s

end Verif
