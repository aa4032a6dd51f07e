import Verif.Model.CountParse
import Verif.Proof.CountLow
import Verif.Proof.BigStep

/-! # The counting parser is the parser, and counts the looks of its attempts -/

namespace Verif.Count
open Nom Spec

variable {α β : Type}

/-- What the counting parser `y` says of `g` on `s` is true. -/
def Told (g : G α) (s : Str) (y : Nat × Res Char α) : Prop :=
  y.2 ≠ .diverge → ∃ L, Traced charLeaf g s L y.2 ∧ y.1 = looks L

def ToldTail (sep : G β) (g : G α) (s : Str) (y : Nat × Res Char (List α)) : Prop :=
  y.2 ≠ .diverge → ∃ L, TracedTail charLeaf sep g s L y.2 ∧ y.1 = looks L

theorem told_many0 {g : G α} {p : C α} (hp : ∀ s, Told g s (p s)) (n : Nat) (s : Str) :
    Told (.many0 g) s (many0Loop p n s) := by
  induction n generalizing s with
  | zero => intro h; exact absurd rfl h
  | succ n ih =>
    have hs := hp s
    have ih' := ih
    simp only [Told, many0Loop] at hs ih' ⊢
    intro h
    cases e : (p s).2 with
    | diverge => simp [e] at h
    | err e' =>
      rw [e] at h hs
      obtain ⟨c, hc, k⟩ := hs (by simp)
      cases e' with
      | error q k' => exact ⟨c, .many0Stop hc, k⟩
      | failure q k' => exact ⟨c, .many0Err hc (by simp), k⟩
      | incomplete => exact ⟨c, .many0Err hc (by simp), k⟩
    | ok r a =>
      rw [e] at h hs
      obtain ⟨c, hc, k⟩ := hs (by simp)
      dsimp only at h ⊢
      split
      · next er => subst er; exact ⟨c, .many0Empty hc, k⟩
      · next er =>
        rw [if_neg er] at h
        obtain ⟨d, hd, k'⟩ := ih' r (consRes_ne_diverge h)
        exact ⟨c ++ d, .many0More hc er hd, by rw [looks_append, k, k']⟩

theorem told_tail {g : G α} {p : C α} {sep : G β} {q : C β} (hp : ∀ s, Told g s (p s)) (hq : ∀ s, Told sep s (q s)) (n : Nat)
    (s : Str) : ToldTail sep g s (sepLoop q p n s) := by
  induction n generalizing s with
  | zero => intro h; exact absurd rfl h
  | succ n ih =>
    have hs := hq s
    have ih' := ih
    simp only [Told, ToldTail, sepLoop] at hs ih' ⊢
    intro h
    cases e : (q s).2 with
    | diverge => simp [e] at h
    | err e' =>
      rw [e] at h hs
      obtain ⟨c, hc, k⟩ := hs (by simp)
      cases e' with
      | error q k' => exact ⟨c, .noSep hc, k⟩
      | failure q k' => exact ⟨c, .sepErr hc (by simp), k⟩
      | incomplete => exact ⟨c, .sepErr hc (by simp), k⟩
    | ok r a =>
      rw [e] at h hs
      obtain ⟨c, hc, k⟩ := hs (by simp)
      dsimp only at h ⊢
      split
      · next er => subst er; exact ⟨c, .sepEmpty hc, k⟩
      · next er =>
        rw [if_neg er] at h
        have hs := hp r
        simp only [Told] at hs
        cases e2 : (p r).2 with
        | diverge => simp [e2] at h
        | err e' =>
          rw [e2] at h hs
          obtain ⟨d, hd, k2⟩ := hs (by simp)
          have k3 : (q s).1 + (p r).1 = looks (c ++ d) := by rw [looks_append, k, k2]
          cases e' with
          | error q k' => exact ⟨c ++ d, .noElem hc er hd, k3⟩
          | failure q k' => exact ⟨c ++ d, .elemErr hc er hd (by simp), k3⟩
          | incomplete => exact ⟨c ++ d, .elemErr hc er hd (by simp), k3⟩
        | ok r2 a2 =>
          rw [e2] at h hs
          obtain ⟨d, hd, k2⟩ := hs (by simp)
          have k3 : (q s).1 + (p r).1 = looks (c ++ d) := by rw [looks_append, k, k2]
          dsimp only at h ⊢
          split
          · next er2 => subst er2; exact ⟨c ++ d, .back hc er hd, k3⟩
          · next er2 =>
            rw [if_neg er2] at h
            obtain ⟨d', hd', k4⟩ := ih' r2 (consRes_ne_diverge h)
            exact ⟨c ++ d ++ d', .more hc er hd er2 hd', by rw [looks_append, ← k3, k4]⟩

theorem told_run {nt : ∀ α, NT α → C α} (hn : ∀ α N s, Told (.call N) s (nt α N s)) (g : G α) (s : Str) : Told g s (run nt g s) := by
  induction g generalizing s with
  | ret a => exact fun _ => ⟨[], .ret, rfl⟩
  | leaf l =>
    intro _
    refine ⟨[⟨l, s⟩], ?_, by simp [run, looks]⟩
    have h1 : (run nt (.leaf l) s).2 = charLeaf _ l s := same_leaf l s
    rw [h1]; exact .leaf
  | bind g f ih1 ih2 =>
    have h1 := ih1 s
    simp only [Told, run, seq] at h1 ih2 ⊢
    intro h
    cases e : (run nt g s).2 with
    | diverge => simp [e] at h
    | err e' =>
      rw [e] at h1
      obtain ⟨c, hc, k⟩ := h1 (by simp)
      exact ⟨c, .bindErr hc, k⟩
    | ok r a =>
      rw [e] at h1 h
      obtain ⟨c, hc, k⟩ := h1 (by simp)
      obtain ⟨d, hd, k'⟩ := ih2 a r h
      exact ⟨c ++ d, .bindOk hc hd, by rw [looks_append, k, ← k']⟩
  | orElse g g' ih1 ih2 =>
    have h1 := ih1 s
    simp only [Told, run, orElse] at h1 ih2 ⊢
    intro h
    cases e : (run nt g s).2 with
    | diverge => simp [e] at h
    | err e' =>
      rw [e] at h1 h
      obtain ⟨c, hc, k⟩ := h1 (by simp)
      cases e' with
      | error p k' =>
        obtain ⟨d, hd, k'⟩ := ih2 s h
        exact ⟨c ++ d, .orElseNext hc hd, by rw [looks_append, k, ← k']⟩
      | failure q k' => exact ⟨c, .orElseErr hc (by simp), k⟩
      | incomplete => exact ⟨c, .orElseErr hc (by simp), k⟩
    | ok r a =>
      rw [e] at h1
      obtain ⟨c, hc, k⟩ := h1 (by simp)
      exact ⟨c, .orElseOk hc, k⟩
  | altEnd => exact fun _ => ⟨[], .altEnd, rfl⟩
  | opt g ih =>
    have h1 := ih s
    simp only [Told, run, opt] at h1 ⊢
    intro h
    cases e : (run nt g s).2 with
    | diverge => simp [e] at h
    | err e' =>
      rw [e] at h1 h
      obtain ⟨c, hc, k⟩ := h1 (by simp)
      cases e' with
      | error p k' => exact ⟨c, .optNone hc, k⟩
      | failure q k' => exact ⟨c, .optErr hc (by simp), k⟩
      | incomplete => exact ⟨c, .optErr hc (by simp), k⟩
    | ok r a =>
      rw [e] at h1
      obtain ⟨c, hc, k⟩ := h1 (by simp)
      exact ⟨c, .optSome hc, k⟩
  | many0 g ih => exact told_many0 ih _ s
  | separatedList sep g ih1 ih2 =>
    have h1 := ih2 s
    have h2 := fun r => told_tail ih2 ih1 (r.length + 1) r
    simp only [Told, ToldTail, run, separatedList] at h1 h2 ⊢
    intro h
    cases e : (run nt g s).2 with
    | diverge => simp [e] at h
    | err e' =>
      rw [e] at h1 h
      obtain ⟨c, hc, k⟩ := h1 (by simp)
      cases e' with
      | error p k' => exact ⟨c, .sepStop hc, k⟩
      | failure q k' => exact ⟨c, .sepErr hc (by simp), k⟩
      | incomplete => exact ⟨c, .sepErr hc (by simp), k⟩
    | ok r a =>
      rw [e] at h1 h
      obtain ⟨c, hc, k⟩ := h1 (by simp)
      dsimp only at h ⊢
      split
      · next er => subst er; exact ⟨c, .sepEmpty hc, k⟩
      · next er =>
        rw [if_neg er] at h
        obtain ⟨d, hd, k'⟩ := h2 r (consRes_ne_diverge h)
        exact ⟨c ++ d, .sepMore hc er hd, by rw [looks_append, k, ← k']⟩
  | separatedNonemptyList sep g ih1 ih2 =>
    have h1 := ih2 s
    have h2 := fun r => told_tail ih2 ih1 (r.length + 1) r
    simp only [Told, ToldTail, run, separatedNonemptyList] at h1 h2 ⊢
    intro h
    cases e : (run nt g s).2 with
    | diverge => simp [e] at h
    | err e' =>
      rw [e] at h1 h
      obtain ⟨c, hc, k⟩ := h1 (by simp)
      exact ⟨c, .sep1Err hc, k⟩
    | ok r a =>
      rw [e] at h1 h
      obtain ⟨c, hc, k⟩ := h1 (by simp)
      dsimp only at h ⊢
      split
      · next er => subst er; exact ⟨c, .sep1Empty hc, k⟩
      · next er =>
        rw [if_neg er] at h
        obtain ⟨d, hd, k'⟩ := h2 r (consRes_ne_diverge h)
        exact ⟨c ++ d, .sep1More hc er hd, by rw [looks_append, k, ← k']⟩
  | call n => exact hn _ n s

theorem told_knot (n : Nat) : ∀ α N s, Told (.call N) s (knot n α N s) := by
  induction n with
  | zero => intro α N s h; exact absurd rfl h
  | succ n ih =>
    intro α N s h
    obtain ⟨L, h1, h2⟩ := told_run ih (G.body N) s h
    exact ⟨L, .call h1, h2⟩

theorem Same.sepLoop {sep : C β} {sep' : P Char β} {p : C α} {p' : P Char α} (hs : Same sep sep') (hp : Same p p') (n : Nat) :
    Same (sepLoop sep p n) (Nom.sepLoop sep' p' n) := by
  induction n with
  | zero => intro i; rfl
  | succ n ih =>
    intro i
    have h1 := hs i
    simp only [Count.sepLoop, Nom.sepLoop]
    rw [← h1]
    cases (sep i).2 with
    | diverge => rfl
    | err e => cases e <;> rfl
    | ok r b =>
      dsimp only
      by_cases hr : r = i
      · rw [if_pos hr, if_pos hr]
      · rw [if_neg hr, if_neg hr]
        have h2 := hp r
        rw [← h2]
        cases (p r).2 with
        | diverge => rfl
        | err e => cases e <;> rfl
        | ok q a =>
          dsimp only
          by_cases hq : q = i
          · rw [if_pos hq, if_pos hq]
          · rw [if_neg hq, if_neg hq, ← ih q]

theorem Same.separatedList {sep : C β} {sep' : P Char β} {p : C α} {p' : P Char α} (hs : Same sep sep') (hp : Same p p') :
    Same (separatedList sep p) (Nom.separatedList sep' p') := by
  intro i
  have h2 := hp i
  simp only [Count.separatedList, Nom.separatedList]
  rw [← h2]
  cases (p i).2 with
  | diverge => rfl
  | err e => cases e <;> rfl
  | ok q a =>
    dsimp only
    by_cases hq : q = i
    · rw [if_pos hq, if_pos hq]
    · rw [if_neg hq, if_neg hq, ← hs.sepLoop hp _ q]

theorem Same.separatedNonemptyList {sep : C β} {sep' : P Char β} {p : C α} {p' : P Char α} (hs : Same sep sep') (hp : Same p p') :
    Same (separatedNonemptyList sep p) (Nom.separatedNonemptyList sep' p') := by
  intro i
  have h2 := hp i
  simp only [Count.separatedNonemptyList, Nom.separatedNonemptyList]
  rw [← h2]
  cases (p i).2 with
  | diverge => rfl
  | err e => rfl
  | ok q a =>
    dsimp only
    by_cases hq : q = i
    · rw [if_pos hq, if_pos hq]
    · rw [if_neg hq, if_neg hq, ← hs.sepLoop hp _ q]

theorem Same.orElse {p q : C α} {p' q' : P Char α} (hp : Same p p') (hq : Same q q') : Same (orElse p q) (Nom.orElse p' q') := by
  intro i
  have h1 := hp i
  have h2 := hq i
  simp only [Count.orElse, Nom.orElse]
  rw [← h1, ← h2]
  cases (p i).2 with
  | diverge => rfl
  | err e => cases e <;> rfl
  | ok r a => rfl

theorem same_run {nt : ∀ α, NT α → C α} {nt' : ∀ α, NT α → P Char α} (hn : ∀ α N, Same (nt α N) (nt' α N)) (g : G α) :
    Same (run nt g) (g.run charLeaf nt') := by
  induction g with
  | ret a => exact .ret a
  | leaf l => exact same_leaf l
  | bind g f ih1 ih2 => exact ih1.seq ih2
  | orElse g h ih1 ih2 => exact ih1.orElse ih2
  | altEnd => intro i; rfl
  | opt g ih => exact ih.opt
  | many0 g ih => exact ih.many0
  | separatedList sep g ih1 ih2 => exact ih1.separatedList ih2
  | separatedNonemptyList sep g ih1 ih2 => exact ih1.separatedNonemptyList ih2
  | call N => exact hn _ N

theorem same_knot (n : Nat) : ∀ α N, Same (knot n α N) (ntRun charLeaf n α N) := by
  induction n with
  | zero => intro α N i; rfl
  | succ n ih => intro α N; exact same_run ih (G.body N)

theorem same_parse {g : G α} {b : Bool} (hg : Guarded true g b) (s : Str) : (parse g s).2 = g.parse s :=
  (same_run (same_knot (s.length + 1)) g s).trans (run_eq_parseWith charLeaf_fine hg (by omega))

/-- The counter of the counting parser. -/
theorem told_parse {g : G α} {b : Bool} (hg : Guarded true g b) (s : Str) :
    ∃ L, Traced charLeaf g s L (g.parse s) ∧ (parse g s).1 = looks L := by
  have h := same_parse hg s
  rw [← h]
  refine told_run (told_knot _) g s ?_
  have h1 : (run (knot (s.length + 1)) g s).2 = g.parse s := h
  rw [h1]
  have := parseWith_fine charLeaf_fine hg s
  intro e
  rw [show g.parseWith charLeaf s = g.parse s from rfl, e] at this
  exact this

end Verif.Count
