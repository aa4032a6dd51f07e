import Verif.Proof.CountParse

/-! # What the parser does depends only on the characters that are counted -/

namespace Verif.Count
open Nom Spec

variable {α β : Type}

theorem ne_append {w r : Str} (h : w ≠ []) : r ≠ w ++ r := fun e => by
  have h1 := congrArg List.length e
  simp only [List.length_append] at h1
  have := List.length_pos_iff.2 h
  omega

theorem Agree.cons {n : Nat} {i j : Str} {a : α} {x y : Res Char (List α)} (h : Agree n i j x y) :
    Agree n i j (consRes a x) (consRes a y) := by
  rcases h.cases with ⟨q, q', b, u, rfl, rfl, h1, h2, hu⟩ | ⟨_, _, k, rfl, rfl⟩ | ⟨_, _, k, rfl, rfl⟩ | ⟨rfl, rfl⟩ | ⟨rfl, rfl⟩
  · exact ⟨rfl, u, h1, h2, hu⟩
  all_goals simp [consRes, Agree]

namespace Local

theorem sepLoop {sep : C β} {p : C α} (hs : Local sep) (hp : Local p) (n m : Nat) (i j : Str) (hn : i.length < n) (hm : j.length < m)
    (h : j.take (Count.sepLoop sep p n i).1 = i.take (Count.sepLoop sep p n i).1) :
    (Count.sepLoop sep p m j).1 = (Count.sepLoop sep p n i).1 ∧
      Agree (Count.sepLoop sep p n i).1 i j (Count.sepLoop sep p n i).2 (Count.sepLoop sep p m j).2 := by
  induction n generalizing m i j with
  | zero => omega
  | succ n ih =>
    cases m with
    | zero => omega
    | succ m =>
      have h0 : (sep i).1 ≤ (Count.sepLoop sep p (n + 1) i).1 := by
        unfold Count.sepLoop
        repeat' split
        all_goals simp
        all_goals omega
      obtain ⟨h1, h2⟩ := hs i j (take_le h0 h)
      rcases h2.cases with ⟨r, r', a, w, e, e', rfl, rfl, hw⟩ | ⟨_, _, k, e, e'⟩ | ⟨_, _, k, e, e'⟩ | ⟨e, e'⟩ | ⟨e, e'⟩
      · by_cases hw0 : w = []
        · subst hw0
          simp only [List.nil_append] at e e' h1 ⊢
          simp only [Count.sepLoop, e, e', if_true]
          exact ⟨h1, rfl⟩
        · have n1 : r ≠ w ++ r := ne_append hw0
          have n2 : r' ≠ w ++ r' := ne_append hw0
          have h3 : (sep (w ++ r)).1 + (p r).1 ≤ (Count.sepLoop sep p (n + 1) (w ++ r)).1 := by
            simp only [Count.sepLoop, e, if_neg n1]
            repeat' split
            all_goals simp
          obtain ⟨h4, h5⟩ := hp r r' (take_append hw (take_le h3 h))
          rcases h5.cases with ⟨q, q', b, u, f, f', rfl, rfl, hu⟩ | ⟨_, _, k, f, f'⟩ | ⟨_, _, k, f, f'⟩ | ⟨f, f'⟩ | ⟨f, f'⟩
          · have hwu : w ++ u ≠ [] := by simp [hw0]
            have n3 : q ≠ w ++ (u ++ q) := by rw [← List.append_assoc]; exact ne_append hwu
            have n4 : q' ≠ w ++ (u ++ q') := by rw [← List.append_assoc]; exact ne_append hwu
            simp only [Count.sepLoop, e, e', if_neg n1, if_neg n2, f, f', if_neg n3, if_neg n4] at h ⊢
            have hw1 := List.length_pos_iff.2 hw0
            simp only [List.length_append] at hn hm
            have hl : (w ++ u).length ≤ (sep (w ++ (u ++ q))).1 + (p (u ++ q)).1 := by simp; omega
            rw [← List.append_assoc, ← List.append_assoc] at h ⊢
            rw [← List.append_assoc] at hl h1
            obtain ⟨h6, h7⟩ := ih m q q' (by omega) (by omega) (take_append hl h)
            rw [← List.append_assoc] at h1
            refine ⟨by omega, ?_⟩
            exact h7.cons.prefix hl
          · simp only [Count.sepLoop, e, e', if_neg n1, if_neg n2, f, f']
            exact ⟨by omega, rfl, [], rfl, rfl, Nat.zero_le _⟩
          all_goals
            simp only [Count.sepLoop, e, e', if_neg n1, if_neg n2, f, f']
            exact ⟨by omega, by simp [Agree]⟩
      · simp only [Count.sepLoop, e, e']
        exact ⟨h1, rfl, [], rfl, rfl, Nat.zero_le _⟩
      all_goals
        simp only [Count.sepLoop, e, e']
        exact ⟨h1, by simp [Agree]⟩

theorem separatedList {sep : C β} {p : C α} (hs : Local sep) (hp : Local p) : Local (Count.separatedList sep p) := fun i j h => by
  have h0 : (p i).1 ≤ (Count.separatedList sep p i).1 := by
    unfold Count.separatedList
    repeat' split
    all_goals simp
  obtain ⟨h1, h2⟩ := hp i j (take_le h0 h)
  rcases h2.cases with ⟨r, r', a, w, e, e', rfl, rfl, hw⟩ | ⟨_, _, k, e, e'⟩ | ⟨_, _, k, e, e'⟩ | ⟨e, e'⟩ | ⟨e, e'⟩
  · by_cases hw0 : w = []
    · subst hw0
      simp only [List.nil_append] at e e' h1 ⊢
      simp only [Count.separatedList, e, e', if_true]
      exact ⟨h1, rfl⟩
    · have n1 : r ≠ w ++ r := ne_append hw0
      have n2 : r' ≠ w ++ r' := ne_append hw0
      simp only [Count.separatedList, e, e', if_neg n1, if_neg n2] at h ⊢
      obtain ⟨h6, h7⟩ := hs.sepLoop hp (r.length + 1) (r'.length + 1) r r' (Nat.lt_succ_self _) (Nat.lt_succ_self _) (take_append hw h)
      exact ⟨by omega, h7.cons.prefix hw⟩
  · simp only [Count.separatedList, e, e']
    exact ⟨h1, rfl, [], rfl, rfl, Nat.zero_le _⟩
  all_goals
    simp only [Count.separatedList, e, e']
    exact ⟨h1, by simp [Agree]⟩

theorem separatedNonemptyList {sep : C β} {p : C α} (hs : Local sep) (hp : Local p) : Local (Count.separatedNonemptyList sep p) :=
    fun i j h => by
  have h0 : (p i).1 ≤ (Count.separatedNonemptyList sep p i).1 := by
    unfold Count.separatedNonemptyList
    repeat' split
    all_goals simp
  obtain ⟨h1, h2⟩ := hp i j (take_le h0 h)
  rcases h2.cases with ⟨r, r', a, w, e, e', rfl, rfl, hw⟩ | ⟨_, _, k, e, e'⟩ | ⟨_, _, k, e, e'⟩ | ⟨e, e'⟩ | ⟨e, e'⟩
  · by_cases hw0 : w = []
    · subst hw0
      simp only [List.nil_append] at e e' h1 ⊢
      simp only [Count.separatedNonemptyList, e, e', if_true]
      exact ⟨h1, rfl⟩
    · have n1 : r ≠ w ++ r := ne_append hw0
      have n2 : r' ≠ w ++ r' := ne_append hw0
      simp only [Count.separatedNonemptyList, e, e', if_neg n1, if_neg n2] at h ⊢
      obtain ⟨h6, h7⟩ := hs.sepLoop hp (r.length + 1) (r'.length + 1) r r' (Nat.lt_succ_self _) (Nat.lt_succ_self _) (take_append hw h)
      exact ⟨by omega, h7.cons.prefix hw⟩
  all_goals
    simp only [Count.separatedNonemptyList, e, e']
    exact ⟨h1, by simp [Agree]⟩

theorem run {nt : ∀ α, NT α → C α} (hn : ∀ α N, Local (nt α N)) (g : G α) : Local (Count.run nt g) := by
  induction g with
  | ret a => exact .ret a
  | leaf l => exact .leaf l
  | bind g f ih1 ih2 => exact ih1.seq ih2
  | orElse g h ih1 ih2 => exact ih1.orElse ih2
  | altEnd => exact .altEnd
  | opt g ih => exact ih.opt
  | many0 g ih => exact ih.many0
  | separatedList sep g ih1 ih2 => exact ih1.separatedList ih2
  | separatedNonemptyList sep g ih1 ih2 => exact ih1.separatedNonemptyList ih2
  | call N => exact hn _ N

theorem knot (n : Nat) : ∀ α N, Local (Count.knot n α N) := by
  induction n with
  | zero => intro α N i j _; exact ⟨rfl, trivial⟩
  | succ n ih => intro α N; exact run ih (G.body N)

end Local

/-- The number of calls allowed does not matter, if it is large enough. -/
theorem parse_eq {g : G α} {b : Bool} (hg : Guarded true g b) {n : Nat} {s : Str} (hn : s.length < n) : run (knot n) g s = parse g s := by
  have h1 : (run (knot n) g s).2 = g.parse s := (same_run (same_knot n) g s).trans (run_eq_parseWith charLeaf_fine hg hn)
  obtain ⟨L, h2, h3⟩ := told_parse hg s
  have h4 : g.parse s ≠ .diverge := by
    have := parseWith_fine charLeaf_fine hg s
    intro e
    rw [show g.parseWith charLeaf s = g.parse s from rfl, e] at this
    exact this
  obtain ⟨L', h5, h6⟩ := told_run (told_knot n) g s (by rw [h1]; exact h4)
  rw [h1] at h5
  obtain ⟨rfl, -⟩ := h2.det _ _ h5
  exact Prod.ext (by rw [h6, h3]) (by rw [h1, same_parse hg])

theorem Local.parse {g : G α} {b : Bool} (hg : Guarded true g b) : Local (Count.parse g) := fun i j h => by
  have h1 := parse_eq hg (n := i.length + j.length + 1) (s := i) (by omega)
  have h2 := parse_eq hg (n := i.length + j.length + 1) (s := j) (by omega)
  rw [← h1] at h ⊢
  rw [← h2]
  exact Local.run (Local.knot _) g i j h

end Verif.Count
