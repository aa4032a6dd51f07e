import Verif.Proof.Definitions
import Verif.Proof.BigStep
import Verif.Proof.Repetition

/-!
# C01 - C04, C06, C07, C16 (second half), C17, C34

Termination, outcomes, remainders, errors, leading trivia, and the top-level loop.
`IsType g b` ranges over the types implementing `Parse` (`Verif/Model/Types.lean`), `g.parse`
is `T::parse`.
-/

namespace Verif.Properties
open Nom Spec

/-! ## C01: parsing terminates on every input -/

/-- Every `T::parse` has a finite execution on every input, and the result computed by the
model is its result (an `Ok` or an `Err`). -/
theorem C01_terminates {α : Type} {g : G α} {b : Bool} (h : IsType g b) (s : Str) :
    ∃ cost, Runs charLeaf g s cost (g.parse s) ∧ g.parse s ≠ .diverge := by
  obtain ⟨c, hc⟩ := Runs.parse charLeaf_fine h.guarded s
  refine ⟨c, hc, fun e => ?_⟩
  have := h.fine s
  rw [e] at this; exact this

example (s : Str) : ∃ cost, Runs charLeaf G.definitions s cost (G.definitions.parse s) ∧ G.definitions.parse s ≠ .diverge :=
  C01_terminates (.vec .definition) s

/-- There is no other execution. -/
theorem C01_unique {α : Type} {g : G α} {b : Bool} (h : IsType g b) (s : Str) {c c' : Nat}
    {x x' : Res Char α} (h1 : Runs charLeaf g s c x) (h2 : Runs charLeaf g s c' x') :
    c = c' ∧ x = x' ∧ x = g.parse s := by
  obtain ⟨d, hd, _⟩ := C01_terminates h s
  obtain ⟨rfl, rfl⟩ := Runs.det h1 _ _ h2
  exact ⟨rfl, rfl, (Runs.det hd _ _ h1).2⟩

example (c : Nat) (x : Res Char Ty) (h : Runs charLeaf G.type c!"any;" c x) : x = .ok c!";" (.single .any) := by
  obtain ⟨d, hd, -⟩ := C01_terminates .type c!"any;"
  exact (C01_unique .type _ h hd).2.2

/-- The recursion is never nested deeper than the length of the input plus one: cutting off
the recursion at that depth, or any larger one, changes nothing. -/
theorem C01_depth {α : Type} {g : G α} {b : Bool} (h : IsType g b) (s : Str) (n : Nat)
    (hn : s.length < n) : g.run charLeaf (ntRun charLeaf n) s = g.parse s :=
  run_eq_parseWith charLeaf_fine h.guarded hn

example : G.type.run charLeaf (ntRun charLeaf 22) c!"sequence<sequence<A>>" = G.type.parse c!"sequence<sequence<A>>" :=
  C01_depth .type _ 22 (by decide)

/-- `weedle::parse` returns or panics. -/
theorem C01_parse (s : Str) : weedleParse s ≠ .diverge := by
  obtain ⟨r, ds, h⟩ := definitions_ok s
  unfold weedleParse
  rw [h]
  dsimp only
  split <;> simp

/-- Cutting off the recursion too early does change the outcome, so the bound is not vacuous. -/
example : G.type.run charLeaf (ntRun charLeaf 1) c!"sequence<sequence<A>>" = .diverge := by rfl
example : ∃ t, G.type.parse c!"sequence<sequence<A>>" = .ok [] t := ⟨_, rfl⟩
example : IsType G.type true := .type
example : IsType (G.many0 (G.opt G.type)) false := .vec (.option .type)

/-! ## C02: `weedle::parse` never returns `Err` -/

theorem C02_never_err (s : Str) : (∃ ds, weedleParse s = .ok ds) ∨ weedleParse s = .panic := by
  obtain ⟨r, ds, h⟩ := definitions_ok s
  unfold weedleParse
  rw [h]
  dsimp only
  split
  · exact .inl ⟨_, rfl⟩
  · exact .inr rfl

example : (∃ ds, weedleParse c!"interface" = .ok ds) ∨ weedleParse c!"interface" = .panic := C02_never_err _

theorem C02_not_err (s : Str) (e : Err Char) : weedleParse s ≠ .err e := by
  rcases C02_never_err s with ⟨ds, h⟩ | h <;> simp [h]

example : weedleParse c!"enum E { };" = .panic := by rfl
example : weedleParse c!"enum E { \"a\" };" = .ok [.enum none c!"E" [c!"a"]] := by rfl

/-! ## C03: `Ok` means the whole input was consumed -/

theorem C03_ok_iff (s : Str) (ds : List Definition) :
    weedleParse s = .ok ds ↔ G.definitions.parse s = .ok [] ds := by
  obtain ⟨r, ds', h⟩ := definitions_ok s
  unfold weedleParse
  rw [h]
  cases r <;> simp

example : ¬ ∃ ds, G.definitions.parse c!"A includes B; rubbish" = .ok [] ds := by
  rintro ⟨ds, h⟩
  cases (C03_ok_iff _ _).2 h

theorem C03_panic_iff (s : Str) :
    weedleParse s = .panic ↔ ∃ r ds, G.definitions.parse s = .ok r ds ∧ r ≠ [] := by
  obtain ⟨r, ds', h⟩ := definitions_ok s
  unfold weedleParse
  rw [h]
  cases r <;> simp

example : G.definitions.parse c!"A includes B; rubbish" =
    .ok c!"rubbish" [.includesStatement none c!"A" c!"B"] := by rfl
example : weedleParse c!"A includes B; rubbish" = .panic := by rfl
example : weedleParse c!"A includes B; /* rubbish */" =
    .ok [.includesStatement none c!"A" c!"B"] := by rfl

/-! ## C04: blank documents -/

theorem C04_empty : weedleParse [] = .ok [] := by rfl

theorem C04_blank (t : Str) (ht : Trivia t) (hne : t ≠ []) : weedleParse t = .panic := by
  rw [C03_panic_iff]
  have h := lead_sim guarded_definitions (s := []) (t := t) (by rw [strip_trivia_nil ht]; rfl)
  have h0 : G.definitions.parse [] = .ok [] [] := rfl
  rw [h0] at h
  obtain ⟨r, ds, e⟩ := definitions_ok t
  rw [e] at h
  cases h with
  | ok hR h1 h2 h3 =>
    have := h3.1 rfl
    subst this
    exact ⟨_, _, e, hne⟩

example : Trivia c!" // nothing\n/* here */ " :=
  .white (by simp) (.line (body := c!" nothing") (by simp)
    (.block (body := c!" here ") (by decide) (.white (by simp) .nil)))
example : weedleParse c!" // nothing\n/* here */ " = .panic := by rfl

/-! ## C06: the remainder is a suffix of the input -/

theorem C06_suffix {α : Type} {g : G α} {b : Bool} (h : IsType g b) (s r : Str) (v : α)
    (hp : g.parse s = .ok r v) : r <:+ s ∧ (b = true → r.length < s.length) := by
  have := h.fine s
  rw [hp] at this
  exact this

example : IsType G.definition true := .definition
example : G.definition.parse c!" A implements B; C" =
    .ok c!"C" (.implements none c!"A" c!"B") := by rfl

/-! ## C07: only recoverable errors, positioned inside the input -/

theorem C07_errors {α : Type} {g : G α} {b : Bool} (h : IsType g b) (s : Str) (e : Err Char)
    (hp : g.parse s = .err e) : ∃ pos kind, e = .error pos kind ∧ pos <:+ s := by
  have := h.fine s
  rw [hp] at this
  cases e with
  | error pos kind => exact ⟨pos, kind, rfl, this⟩
  | _ => exact this.elim

example : (G.enumDefinition.parse c!"enum E { 1 };") = .err (.error c!"1 };" .char) := by rfl

/-! ## C16, second half: no trivia is left in front of the remainder -/

theorem C16_remainder {α : Type} {g : G α} {b : Bool} (h : IsType g b) (s r : Str) (v : α)
    (hp : g.parse s = .ok r v) (hne : r ≠ s) : NoTrivia r := by
  have := lead_sim h.guarded (s := s) (t := s) rfl
  rw [hp] at this
  cases this with
  | ok hR h1 h2 h3 =>
    rw [noTrivia_iff]
    rcases hR with ⟨rfl, _⟩ | ⟨_, h⟩
    · exact absurd rfl hne
    · exact h

example : G.typedefDefinition.parse c!"typedef A B; /* c */ // d\n X" =
    .ok c!"X" (.typedef none (.mk none (.single (.nonAny (.identifier c!"A" false)))) c!"B") := by rfl

/-! ## C17: leading trivia is irrelevant -/

theorem C17_ok {α : Type} {g : G α} {b : Bool} (h : IsType g b) {t : Str} (ht : Trivia t)
    {s r : Str} {v : α} (hp : g.parse s = .ok r v) :
    ∃ r', g.parse (t ++ s) = .ok r' v ∧ (r ≠ s → r' = r) ∧ (r = s → r' = t ++ s) := by
  have h1 := lead_sim h.guarded (s := s) (t := t ++ s) (strip_trivia ht s).symm
  have h2 := h.fine (t ++ s)
  rw [hp] at h1
  revert h1 h2
  cases e : g.parse (t ++ s) with
  | ok r' v' =>
    intro h1 _
    cases h1 with
    | ok hR k1 k2 k3 =>
      refine ⟨r', rfl, fun hne => ?_, fun e => k3.1 e⟩
      rcases hR with ⟨rfl, _⟩ | ⟨rfl, _⟩
      · exact absurd rfl hne
      · rfl
  | diverge => intro _ h; exact h.elim
  | err e' => intro h1 h2; cases h1 <;> exact h2.elim

example : ∃ r', G.type.parse (c!" /*x*/ " ++ c!"any;") = .ok r' (.single .any) ∧ r' = c!";" := by
  obtain ⟨r', h1, h2, -⟩ := C17_ok .type (t := c!" /*x*/ ") (.white (by simp) (.block (body := c!"x") (by decide) (.white (by simp) .nil)))
    (s := c!"any;") (r := c!";") (v := .single .any) rfl
  exact ⟨r', h1, h2 (by decide)⟩

theorem C17_fails {α : Type} {g : G α} {b : Bool} (h : IsType g b) {t : Str} (ht : Trivia t)
    {s : Str} : Fails g.parse (t ++ s) ↔ Fails g.parse s := by
  have h1 := lead_sim h.guarded (s := s) (t := t ++ s) (strip_trivia ht s).symm
  have h2 := h.fine (t ++ s)
  have h3 := h.fine s
  unfold Fails
  revert h1 h2 h3
  generalize g.parse s = x
  generalize g.parse (t ++ s) = y
  intro h1 h2 h3
  cases h1 <;> simp [Fine] at h2 ⊢

example : Fails G.type.parse (c!" " ++ c!"1") := (C17_fails .type (.white (by simp) .nil)).2 ⟨_, _, rfl⟩

/-- If a definition is recognised at the beginning of `s`, a document may be preceded by any
trivia. -/
theorem C17_document {t : Str} (ht : Trivia t) {s r : Str} {d : Definition}
    (hd : G.definition.parse s = .ok r d) : weedleParse (t ++ s) = weedleParse s := by
  have hf := (IsType.definition.fine s)
  rw [hd] at hf
  have hne : r ≠ s := by rintro rfl; exact Nat.lt_irrefl _ (hf.2 rfl)
  obtain ⟨r', h1, h2, _⟩ := C17_ok .definition ht hd
  obtain rfl := h2 hne
  have hf' := (IsType.definition.fine (t ++ s))
  rw [h1] at hf'
  have hne' : r' ≠ t ++ s := by intro e; rw [← e] at hf'; exact Nat.lt_irrefl _ (hf'.2 rfl)
  have : G.definitions.parse (t ++ s) = G.definitions.parse s := by
    rw [definitions_eq, definitions_eq, many0_eq definition_suff, many0_eq definition_suff (s := s),
      hd, h1]
    simp [hne, hne']
  unfold weedleParse
  rw [this]

example : G.definition.parse c!"enum E{\"a\"};x" = .ok c!"x" (.enum none c!"E" [c!"a"]) := by rfl
example : weedleParse c!"/*1*/enum E{\"a\"};" = .ok [.enum none c!"E" [c!"a"]] := by rfl

/-! ## C34: `Definitions::parse` stops only where no definition starts -/

theorem C34_definitions (s r : Str) (ds : List Definition) :
    G.definitions.parse s = .ok r ds ↔
      Chain G.definition.parse s ds r ∧ Fails G.definition.parse r := by
  rw [definitions_eq]
  exact many0_ok_iff definition_suff

example : Chain G.definition.parse c!"A includes B; }" [.includesStatement none c!"A" c!"B"] c!"}" ∧ Fails G.definition.parse c!"}" :=
  (C34_definitions _ _ _).1 rfl

theorem C34_exists (s : Str) : ∃ r ds, Chain G.definition.parse s ds r ∧
    Fails G.definition.parse r := by
  obtain ⟨r, ds, h⟩ := definitions_ok s
  exact ⟨r, ds, (C34_definitions s r ds).1 h⟩

example : G.definitions.parse c!"A includes B; C includes D; }" =
    .ok c!"}" [.includesStatement none c!"A" c!"B", .includesStatement none c!"C" c!"D"] := by rfl

end Verif.Properties
