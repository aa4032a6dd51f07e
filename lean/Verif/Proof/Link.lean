import Verif.Spec.Alike
import Verif.Proof.Recode

/-! # Two parsers side by side -/

namespace Verif.Links
open Nom Spec Source
open Verif.Recodes (suff_seq suff_opt suff_separatedList suff_separatedNonemptyList)

variable {R : Str → Str → Prop} {α α' β β' : Type} {V : α → α' → Prop} {W : β → β' → Prop}

/-- The results of two parsers, one on `s` and the other on `t`. -/
inductive Linked (R : Str → Str → Prop) (V : α → α' → Prop) (s t : Str) : Res Char α → Res Char α' → Prop where
  | left {y : Res Char α'} : Linked R V s t .diverge y
  | right {x : Res Char α} : Linked R V s t x .diverge
  | ok {r r' : Str} {a : α} {a' : α'} (hr : R r r') (hv : V a a') (hs : r = s ↔ r' = t) : Linked R V s t (.ok r a) (.ok r' a')
  | err {p p' : Str} {k k' : ErrorKind} : Linked R V s t (.err (.error p k)) (.err (.error p' k'))

/-- The parsers do the same on texts that are related. -/
structure Link (R : Str → Str → Prop) (V : α → α' → Prop) (p : P Char α) (q : P Char α') : Prop where
  at_ : ∀ {s t}, R s t → Linked R V s t (p s) (q t)
  left : Suff p
  right : Suff q

theorem suff_eq_trans {r i s : Str} (h : r <:+ i) (h' : i <:+ s) : r = s ↔ r = i ∧ i = s := by
  refine ⟨?_, fun ⟨e, e'⟩ => e.trans e'⟩
  rintro rfl
  have := h.eq_of_length_le h'.length_le
  exact ⟨this, this.symm⟩

theorem suff_ret {a : α} : Suff (Nom.ret a : P Char α) := by
  intro s r b e
  simp [Nom.ret] at e
  simp [e.1]

theorem suff_orElse {p p' : P Char α} (hp : Suff p) (hp' : Suff p') : Suff (orElse p p') := by
  intro s r a e
  simp only [orElse] at e
  split at e
  · exact hp' _ _ _ e
  · exact hp _ _ _ e

theorem suff_altEnd : Suff (altEnd : P Char α) := by
  intro s r a e
  simp [altEnd] at e

theorem suff_map {f : α → β} {p : P Char α} (hp : Suff p) : Suff (Nom.map f p) := suff_seq hp fun _ => suff_ret

theorem link_ret {a : α} {a' : α'} (h : V a a') : Link R V (Nom.ret a) (Nom.ret a') where
  at_ hr := .ok hr h ⟨fun _ => rfl, fun _ => rfl⟩
  left := suff_ret
  right := suff_ret

theorem link_seq {p : P Char α} {q : P Char α'} {g : α → P Char β} {g' : α' → P Char β'} (hp : Link R V p q)
    (hg : ∀ {a a'}, V a a' → Link R W (g a) (g' a')) (hl : ∀ a, Suff (g a)) (hr : ∀ a, Suff (g' a)) :
    Link R W (Nom.seq p g) (Nom.seq q g') where
  at_ {s t} h := by
    have h1 := hp.at_ h
    simp only [Nom.seq]
    cases e : p s with
    | diverge => exact .left
    | err x =>
      cases e' : q t with
      | diverge => exact .right
      | err y => rw [e, e'] at h1; cases h1; exact .err
      | ok r' a' => rw [e, e'] at h1; cases h1
    | ok r a =>
      cases e' : q t with
      | diverge => exact .right
      | err y => rw [e, e'] at h1; cases h1
      | ok r' a' =>
        rw [e, e'] at h1
        cases h1 with
        | ok h2 h3 h4 =>
        have h5 := (hg h3).at_ h2
        have s1 := hp.left _ _ _ e
        have s2 := hp.right _ _ _ e'
        dsimp only
        generalize ex : g a r = x at h5
        generalize ey : g' a' r' = y at h5
        cases h5 with
        | left => exact .left
        | right => exact .right
        | err => exact .err
        | ok h6 h7 h8 =>
          refine .ok h6 h7 ?_
          rw [suff_eq_trans (hl _ _ _ _ ex) s1, suff_eq_trans (hr _ _ _ _ ey) s2, h8, h4]
  left := suff_seq hp.left hl
  right := suff_seq hp.right hr

theorem link_map {p : P Char α} {q : P Char α'} {f : α → β} {f' : α' → β'} (hp : Link R V p q)
    (h : ∀ {a a'}, V a a' → W (f a) (f' a')) : Link R W (Nom.map f p) (Nom.map f' q) :=
  link_seq hp (fun hv => link_ret (h hv)) (fun _ => suff_ret) fun _ => suff_ret

theorem linked_orElse {p p' : P Char α} {q q' : P Char α'} {s t : Str} (h : Linked R V s t (p s) (q t))
    (h' : (∃ k e, p s = .err (.error k e)) → (∃ k e, q t = .err (.error k e)) → Linked R V s t (p' s) (q' t)) :
    Linked R V s t (orElse p p' s) (orElse q q' t) := by
  simp only [orElse]
  cases e : p s with
  | diverge => exact .left
  | err x =>
    cases e' : q t with
    | diverge => exact .right
    | err y => rw [e, e'] at h; cases h; exact h' ⟨_, _, e⟩ ⟨_, _, e'⟩
    | ok r' a' => rw [e, e'] at h; cases h
  | ok r a =>
    cases e' : q t with
    | diverge => exact .right
    | err y => rw [e, e'] at h; cases h
    | ok r' a' => rw [e, e'] at h; exact h

theorem link_orElse {p p' : P Char α} {q q' : P Char α'} (hp : Link R V p q) (hp' : Link R V p' q') :
    Link R V (orElse p p') (orElse q q') where
  at_ h := linked_orElse (hp.at_ h) fun _ _ => hp'.at_ h
  left := suff_orElse hp.left hp'.left
  right := suff_orElse hp.right hp'.right

theorem link_altEnd : Link R V altEnd altEnd where
  at_ _ := .err
  left := suff_altEnd
  right := suff_altEnd

inductive Opt (V : α → α' → Prop) : Option α → Option α' → Prop where
  | none : Opt V none none
  | some {a : α} {a' : α'} (h : V a a') : Opt V (some a) (some a')

theorem link_opt {p : P Char α} {q : P Char α'} (hp : Link R V p q) : Link R (Opt V) (Nom.opt p) (Nom.opt q) where
  at_ {s t} h := by
    have h1 := hp.at_ h
    simp only [Nom.opt]
    generalize p s = x at h1
    generalize q t = y at h1
    cases h1 with
    | left => exact .left
    | right => exact .right
    | ok h2 h3 h4 => exact .ok h2 (.some h3) h4
    | err => exact .ok h .none (by simp)
  left := suff_opt hp.left
  right := suff_opt hp.right

theorem link_cond {p : P Char α} {q : P Char α'} {b : Bool} (hp : Link R V p q) :
    Link R (Opt V) (Nom.cond b p) (Nom.cond b q) := by
  unfold Nom.cond
  cases b
  · exact link_ret .none
  · exact link_map hp .some

inductive Each (V : α → α' → Prop) : List α → List α' → Prop where
  | nil : Each V [] []
  | cons {a : α} {a' : α'} {as : List α} {as' : List α'} (h : V a a') (hs : Each V as as') : Each V (a :: as) (a' :: as')

theorem linked_cons {s t r r' : Str} {a : α} {a' : α'} {x : Res Char (List α)} {y : Res Char (List α')} (h : V a a')
    (hx : ∀ u as, x = .ok u as → u ≠ s) (hy : ∀ u as, y = .ok u as → u ≠ t) (h' : Linked R (Each V) r r' x y) :
    Linked R (Each V) s t (consRes a x) (consRes a' y) := by
  cases h' with
  | left => exact .left
  | right => exact .right
  | err => exact .err
  | ok h2 h3 h4 => exact .ok h2 (.cons h h3) ⟨fun e => absurd e (hx _ _ rfl), fun e => absurd e (hy _ _ rfl)⟩

theorem suff_many0 {p : P Char α} (hp : Suff p) : Suff (Nom.many0 p) := fun s => suff_many0Loop hp _ s

theorem ne_of_suff {u r s : Str} (h : u <:+ r) (h' : r <:+ s) (hn : r ≠ s) : u ≠ s := fun e =>
  hn ((suff_eq_trans h h').1 e).2

theorem link_many0 {p : P Char α} {q : P Char α'} (hp : Link R V p q) : Link R (Each V) (Nom.many0 p) (Nom.many0 q) where
  at_ {s t} h := by
    induction hn : s.length using Nat.strongRecOn generalizing s t with
    | ind n ih =>
      have h1 := hp.at_ h
      rw [many0_eq hp.left, many0_eq hp.right]
      cases e : p s with
      | diverge => exact .left
      | err x =>
        cases e' : q t with
        | diverge => cases x <;> exact .right
        | err y => rw [e, e'] at h1; cases h1; exact .ok h .nil (by simp)
        | ok r' a' => rw [e, e'] at h1; cases h1
      | ok r a =>
        cases e' : q t with
        | diverge => exact .right
        | err y => rw [e, e'] at h1; cases h1
        | ok r' a' =>
          rw [e, e'] at h1
          cases h1 with
          | ok h2 h3 h4 =>
          have s1 := hp.left _ _ _ e
          have s2 := hp.right _ _ _ e'
          dsimp only
          by_cases hs : r = s
          · rw [if_pos hs, if_pos (h4.1 hs)]
            exact .err
          · have ht : r' ≠ t := fun e => hs (h4.2 e)
            rw [if_neg hs, if_neg ht]
            have := suffix_ne_length s1 hs
            refine linked_cons h3 (fun u as e => ?_) (fun u as e => ?_) (ih _ (by omega) h2 rfl)
            · exact ne_of_suff (suff_many0 hp.left _ _ _ e) s1 hs
            · exact ne_of_suff (suff_many0 hp.right _ _ _ e) s2 ht
  left := suff_many0 hp.left
  right := suff_many0 hp.right

theorem suff_sepTail {p : P Char β} {p' : P Char α} (hs : Suff p) (hp : Suff p') : Suff (sepTail p p') := fun s =>
  suff_sepLoop hs hp _ s

theorem linked_sepTail {p : P Char α} {q : P Char α'} {p' : P Char β} {q' : P Char β'} (hs : Link R W p' q') (hp : Link R V p q)
    {s t : Str} (h : R s t) : Linked R (Each V) s t (sepTail p' p s) (sepTail q' q t) := by
  induction hn : s.length using Nat.strongRecOn generalizing s t with
  | ind n ih =>
    have h1 := hs.at_ h
    rw [sepTail_eq hs.left hp.left, sepTail_eq hs.right hp.right]
    cases e : p' s with
    | diverge => exact .left
    | err x =>
      cases e' : q' t with
      | diverge => cases x <;> exact .right
      | err y => rw [e, e'] at h1; cases h1; exact .ok h .nil (by simp)
      | ok r' a' => rw [e, e'] at h1; cases h1
    | ok r b =>
      cases e' : q' t with
      | diverge => exact .right
      | err y => rw [e, e'] at h1; cases h1
      | ok r' b' =>
        rw [e, e'] at h1
        cases h1 with
        | ok h2 h3 h4 =>
        have s1 := hs.left _ _ _ e
        have s2 := hs.right _ _ _ e'
        dsimp only
        by_cases hne : r = s
        · rw [if_pos hne, if_pos (h4.1 hne)]
          exact .err
        · have hnt : r' ≠ t := fun e => hne (h4.2 e)
          rw [if_neg hne, if_neg hnt]
          have := suffix_ne_length s1 hne
          have h5 := hp.at_ h2
          cases e1 : p r with
          | diverge => exact .left
          | err x =>
            cases e1' : q r' with
            | diverge => cases x <;> exact .right
            | err y => rw [e1, e1'] at h5; cases h5; exact .ok h .nil (by simp)
            | ok r' a' => rw [e1, e1'] at h5; cases h5
          | ok u a =>
            cases e1' : q r' with
            | diverge => exact .right
            | err y => rw [e1, e1'] at h5; cases h5
            | ok u' a' =>
              rw [e1, e1'] at h5
              cases h5 with
              | ok h6 h7 h8 =>
              have s3 := hp.left _ _ _ e1
              have s4 := hp.right _ _ _ e1'
              have n1 := ne_of_suff s3 s1 hne
              have n2 := ne_of_suff s4 s2 hnt
              dsimp only
              rw [if_neg n1, if_neg n2]
              have := s3.length_le
              refine linked_cons h7 (fun v as e => ?_) (fun v as e => ?_) (ih _ (by omega) h6 rfl)
              · exact ne_of_suff (suff_sepTail hs.left hp.left _ _ _ e) (s3.trans s1) n1
              · exact ne_of_suff (suff_sepTail hs.right hp.right _ _ _ e) (s4.trans s2) n2

theorem linked_sep {p : P Char α} {q : P Char α'} {p' : P Char β} {q' : P Char β'} (hs : Link R W p' q') (hp : Link R V p q)
    {s t r r' : Str} {a : α} {a' : α'} (e : p s = .ok r a) (e' : q t = .ok r' a') (h1 : R r r') (h2 : V a a')
    (h4 : r = s ↔ r' = t) :
    Linked R (Each V) s t (if r = s then .err (.error r .separatedList) else consRes a (sepTail p' p r))
      (if r' = t then .err (.error r' .separatedList) else consRes a' (sepTail q' q r')) := by
  have s1 := hp.left _ _ _ e
  have s2 := hp.right _ _ _ e'
  by_cases hs' : r = s
  · rw [if_pos hs', if_pos (h4.1 hs')]
    exact .err
  · have ht : r' ≠ t := fun e => hs' (h4.2 e)
    rw [if_neg hs', if_neg ht]
    refine linked_cons h2 (fun u as e => ?_) (fun u as e => ?_) (linked_sepTail hs hp h1)
    · exact ne_of_suff (suff_sepTail hs.left hp.left _ _ _ e) s1 hs'
    · exact ne_of_suff (suff_sepTail hs.right hp.right _ _ _ e) s2 ht

theorem link_separatedList {p : P Char α} {q : P Char α'} {p' : P Char β} {q' : P Char β'} (hs : Link R W p' q')
    (hp : Link R V p q) : Link R (Each V) (separatedList p' p) (separatedList q' q) where
  at_ {s t} h := by
    have h1 := hp.at_ h
    simp only [separatedList]
    cases e : p s with
    | diverge => exact .left
    | err x =>
      cases e' : q t with
      | diverge => cases x <;> exact .right
      | err y => rw [e, e'] at h1; cases h1; exact .ok h .nil (by simp)
      | ok r' a' => rw [e, e'] at h1; cases h1
    | ok r a =>
      cases e' : q t with
      | diverge => exact .right
      | err y => rw [e, e'] at h1; cases h1
      | ok r' a' =>
        rw [e, e'] at h1
        cases h1 with
        | ok h2 h3 h4 => exact linked_sep hs hp e e' h2 h3 h4
  left := suff_separatedList hs.left hp.left
  right := suff_separatedList hs.right hp.right

theorem link_separatedNonemptyList {p : P Char α} {q : P Char α'} {p' : P Char β} {q' : P Char β'} (hs : Link R W p' q')
    (hp : Link R V p q) : Link R (Each V) (separatedNonemptyList p' p) (separatedNonemptyList q' q) where
  at_ {s t} h := by
    have h1 := hp.at_ h
    simp only [separatedNonemptyList]
    cases e : p s with
    | diverge => exact .left
    | err x =>
      cases e' : q t with
      | diverge => cases x <;> exact .right
      | err y => rw [e, e'] at h1; cases h1; exact .err
      | ok r' a' => rw [e, e'] at h1; cases h1
    | ok r a =>
      cases e' : q t with
      | diverge => exact .right
      | err y => rw [e, e'] at h1; cases h1
      | ok r' a' =>
        rw [e, e'] at h1
        cases h1 with
        | ok h2 h3 h4 => exact linked_sep hs hp e e' h2 h3 h4
  left := suff_separatedNonemptyList hs.left hp.left
  right := suff_separatedNonemptyList hs.right hp.right

end Verif.Links
