import Verif.Proof.Automaton
import Verif.Spec.Kind

/-!
# Two texts that differ in one item

If two texts with the same beginning and end, and different items in between, are both accepted by the automaton of
`Proof/Automaton.lean`, then it is in a pair of states of a known finite set when it comes to the difference (`sync`).
-/

namespace Verif.Auto
open Nom Spec

variable {y z : Str}

/-! ## Brackets -/

/-- not a bracket -/
def Flat (w : Str) : Prop := ∀ p ∈ pairs, w ≠ p.1 ∧ w ≠ p.2

instance (w : Str) : Decidable (Flat w) := inferInstanceAs (Decidable (∀ p ∈ pairs, _))

/-- a closing bracket -/
def Closing (w : Str) : Prop := ∃ o, (o, w) ∈ pairs

theorem Br.mem (b : Br) : (b.opening, b.closing) ∈ pairs := by cases b <;> decide

theorem Br.of_opening {b b' : Br} (h : b.opening = b'.opening) : b = b' := by
  cases b <;> cases b' <;> first | rfl | (revert h; decide)

theorem has_flat {h : Hd} {w : Str} (hw : h.has y w) : Flat w := by
  cases h with
  | w k => subst hw; cases k <;> decide
  | name ex =>
    obtain ⟨⟨c, v, rfl, hc⟩, -⟩ := hw
    intro p hp
    simp only [pairs, List.mem_cons, List.not_mem_nil, or_false] at hp
    rcases hp with rfl | rfl | rfl | rfl <;> constructor <;> rintro h <;> simp at h <;> obtain ⟨rfl, rfl⟩ := h <;>
      (revert hc; decide)
  | str =>
    obtain ⟨v, rfl⟩ := hw
    intro p hp
    simp only [pairs, List.mem_cons, List.not_mem_nil, or_false] at hp
    rcases hp with rfl | rfl | rfl | rfl <;> constructor <;> rintro h <;> simp at h
  | num =>
    obtain ⟨c, v, rfl, hc⟩ := hw
    intro p hp
    simp only [pairs, List.mem_cons, List.not_mem_nil, or_false] at hp
    rcases hp with rfl | rfl | rfl | rfl <;> constructor <;> rintro h <;> simp at h <;> obtain ⟨rfl, rfl⟩ := h <;>
      (revert hc; simp [IsDig]; try decide)
  | grp b r => exact hw.elim

theorem Acc.balanced {q : St} {ls : List Str} (h : Acc z q ls) : Balanced ls := by
  induction h with
  | done _ => exact .nil
  | item hm hw hs ih => exact .item (has_flat hw) ih
  | group hm hc hs ih1 ih2 => exact .group (Br.mem _) ih1 ih2

theorem opening_not_flat (b : Br) : ¬ Flat b.opening := by cases b <;> decide

theorem closing_not_flat {c : Str} (h : Closing c) : ¬ Flat c := by
  obtain ⟨o, h⟩ := h
  exact fun hf => (hf _ h).2 rfl

theorem closing_ne_opening {c o c' : Str} (h : Closing c) (h' : (o, c') ∈ pairs) : c ≠ o := by
  obtain ⟨o', h⟩ := h
  simp only [pairs, List.mem_cons, List.not_mem_nil, or_false, Prod.mk.injEq] at h h'
  rcases h with ⟨-, rfl⟩ | ⟨-, rfl⟩ | ⟨-, rfl⟩ | ⟨-, rfl⟩ <;> rcases h' with ⟨rfl, -⟩ | ⟨rfl, -⟩ | ⟨rfl, -⟩ | ⟨rfl, -⟩ <;> decide

theorem balanced_split {c c' r r' : List Str} {x y : Str} (h : Balanced c) (h' : Balanced c') (hx : Closing x) (hy : Closing y)
    (he : c ++ x :: r = c' ++ y :: r') : c = c' ∧ r = r' := by
  induction h generalizing c' r r' x y with
  | nil =>
    cases h' with
    | nil => simp at he; exact ⟨rfl, he.2⟩
    | item hw _ => simp at he; exact absurd (he.1 ▸ hw) (closing_not_flat hx)
    | group hp _ _ => simp at he; exact absurd he.1 (closing_ne_opening hx hp)
  | @item w ls hw h ih =>
    cases h' with
    | nil => simp at he; exact absurd (he.1 ▸ hw) (closing_not_flat hy)
    | item hw' h' =>
      simp at he
      obtain ⟨rfl, he⟩ := he
      obtain ⟨rfl, rfl⟩ := ih h' hx hy he
      exact ⟨rfl, rfl⟩
    | group hp _ _ => simp at he; exact absurd rfl (he.1 ▸ (hw _ hp).1)
  | @group o cl ls ls' hp h1 h2 ih1 ih2 =>
    cases h' with
    | nil => simp at he; exact absurd he.1.symm (closing_ne_opening hy hp)
    | item hw' h' => simp at he; exact absurd rfl (he.1 ▸ (hw' _ hp).1)
    | @group o' cl' ms ms' hp' h1' h2' =>
      simp only [List.cons_append, List.append_assoc, List.cons.injEq] at he
      obtain ⟨rfl, he⟩ := he
      obtain ⟨rfl, he2⟩ := ih1 h1' ⟨_, hp⟩ ⟨_, hp'⟩ he
      obtain ⟨rfl, rfl⟩ := ih2 h2' hx hy he2
      have : cl = cl' := by
        simp only [pairs, List.mem_cons, List.not_mem_nil, or_false, Prod.mk.injEq] at hp hp'
        rcases hp with ⟨rfl, rfl⟩ | ⟨rfl, rfl⟩ | ⟨rfl, rfl⟩ | ⟨rfl, rfl⟩ <;>
          rcases hp' with ⟨h, rfl⟩ | ⟨h, rfl⟩ | ⟨h, rfl⟩ | ⟨h, rfl⟩ <;> first | rfl | (revert h; decide)
      subst this
      exact ⟨rfl, rfl⟩

theorem split_cases {α : Type} {c r a b : List α} {x : α} {u : List α} (h : c ++ x :: r = a ++ u ++ b) (hx : x ∉ u) :
    (∃ b', c = a ++ u ++ b' ∧ b = b' ++ x :: r) ∨ ∃ a', a = c ++ x :: a' ∧ r = a' ++ u ++ b := by
  rw [List.append_assoc] at h
  rcases List.append_eq_append_iff.1 h with ⟨k, h1, h2⟩ | ⟨k, h1, h2⟩
  · cases k with
    | nil =>
      simp at h1 h2
      cases u with
      | nil => simp at h2; exact .inl ⟨[], by simp [h1], by simp [← h2]⟩
      | cons y u => simp at h2 hx; exact absurd h2.1 hx.1
    | cons y k =>
      simp at h2
      obtain ⟨rfl, h2⟩ := h2
      exact .inr ⟨k, h1, by simpa using h2⟩
  · rcases List.append_eq_append_iff.1 h2 with ⟨k', h3, h4⟩ | ⟨k', h3, h4⟩
    · exact .inl ⟨k', by simp [h1, h3], h4⟩
    · cases k' with
      | nil => simp at h3 h4; exact .inl ⟨[], by simp [h1, h3], by simp [← h4]⟩
      | cons y k' =>
        simp at h4
        exact absurd (by simp [h3, ← h4.1]) hx

theorem Balanced.drop {ls : List Str} (h : Balanced ls) {a b : List Str} {x : Str} (hx : Flat x) (he : ls = a ++ x :: b) :
    Balanced (a ++ b) := by
  induction h generalizing a b with
  | nil => simp at he
  | @item w ls hw h ih =>
    cases a with
    | nil => simp at he; obtain ⟨rfl, rfl⟩ := he; exact h
    | cons y a => simp at he; obtain ⟨rfl, rfl⟩ := he; exact .item hw (ih rfl)
  | @group o c ls ls' hp h1 h2 ih1 ih2 =>
    cases a with
    | nil => simp at he; obtain ⟨rfl, rfl⟩ := he; exact absurd rfl (hx _ hp).1
    | cons y a =>
      simp only [List.cons_append, List.cons.injEq] at he
      obtain ⟨rfl, he⟩ := he
      have he' : ls ++ c :: ls' = a ++ [x] ++ b := by simpa using he
      rcases split_cases he' (by simp; exact fun h => (hx _ hp).2 h.symm) with ⟨b', rfl, rfl⟩ | ⟨a', rfl, rfl⟩
      · have := Balanced.group hp (ih1 (a := a) (b := b') (by simp)) h2
        simpa using this
      · have := Balanced.group hp h1 (ih2 (a := a') (b := b) (by simp))
        simpa using this

theorem Balanced.insert {ls : List Str} (h : Balanced ls) {a b : List Str} {x : Str} (hx : Flat x) (he : ls = a ++ b) :
    Balanced (a ++ x :: b) := by
  induction h generalizing a b with
  | nil => simp at he; obtain ⟨rfl, rfl⟩ := he; exact .item hx .nil
  | @item w ls hw h ih =>
    cases a with
    | nil => simp at he; subst he; exact .item hx (.item hw h)
    | cons y a => simp at he; obtain ⟨rfl, rfl⟩ := he; exact .item hw (ih rfl)
  | @group o c ls ls' hp h1 h2 ih1 ih2 =>
    cases a with
    | nil => simp at he; subst he; exact .item hx (by have := Balanced.group hp h1 h2; simpa using this)
    | cons y a =>
      simp only [List.cons_append, List.cons.injEq] at he
      obtain ⟨rfl, he⟩ := he
      have he' : ls ++ c :: ls' = a ++ [] ++ b := by simpa using he
      rcases split_cases he' (by simp) with ⟨b', rfl, rfl⟩ | ⟨a', rfl, rfl⟩
      · have := Balanced.group hp (ih1 (a := a) (b := b') (by simp)) h2
        simpa using this
      · have := Balanced.group hp h1 (ih2 (a := a') (b := b) (by simp))
        simpa using this

theorem Balanced.exchange {a b : List Str} : ∀ {u v : List Str}, (∀ x ∈ u, Flat x) → (∀ x ∈ v, Flat x) → Balanced (a ++ u ++ b) →
    Balanced (a ++ v ++ b)
  | x :: u, v, hu, hv, h => by
    have : Balanced (a ++ u ++ b) := by
      have := Balanced.drop h (a := a) (b := u ++ b) (x := x) (hu x (by simp)) (by simp)
      simpa using this
    exact Balanced.exchange (fun x hx => hu x (by simp [hx])) hv this
  | [], [], _, _, h => h
  | [], y :: v, hu, hv, h => by
    have := Balanced.exchange (v := v) hu (fun x hx => hv x (by simp [hx])) h
    have := Balanced.insert this (a := a) (b := v ++ b) (x := y) (hv y (by simp)) (by simp)
    simpa using this

/-! ## Letters that stand for the same item -/

/-- The fixed items that are words. -/
def Wd.isName : Wd → Bool
  | .comma | .semi | .colon | .eq | .query | .dots | .star | .negInfinity => false
  | _ => true

def compat : Hd → Hd → Bool
  | .w a, .w b => decide (a = b)
  | .w a, .name ex => a.isName && !decide (a ∈ ex)
  | .name ex, .w a => a.isName && !decide (a ∈ ex)
  | .name _, .name _ => true
  | .str, .str => true
  | .num, .num => true
  | .num, .w a => decide (a = .dots ∨ a = .negInfinity)
  | .w a, .num => decide (a = .dots ∨ a = .negInfinity)
  | _, _ => false

theorem Wd.text_inj {a b : Wd} (h : a.text = b.text) : a = b := by
  revert a b
  have : ∀ a b : Wd, a.text = b.text → a = b := by
    intro a b
    cases a <;> cases b <;> first | exact fun _ => rfl | (intro h; exact absurd h (by decide))
  exact @this

theorem Wd.first {a : Wd} {c : Char} {v : Str} (h : a.text = c :: v) :
    (c.isAlpha = Bool.true → a.isName = Bool.true) ∧ c ≠ '_' ∧ c ≠ '"' ∧ ¬ IsDig c ∧ (c = '.' ∨ c = '-' → a = .dots ∨ a = .negInfinity) := by
  cases a <;> (injection h with h1 h2; subst h1; refine ⟨?_, ?_, ?_, ?_, ?_⟩ <;> first | decide | (simp [IsDig]; try decide))

theorem compat_of {h h' : Hd} {w : Str} (hw : h.has y w) (hw' : h'.has z w) : compat h h' = Bool.true := by
  have alpha_dig : ∀ c : Char, (c.isAlpha = Bool.true ∨ c = '_') → (IsDig c ∨ c = '.' ∨ c = '-') → False := by
    rintro c (h1 | rfl) h2
    · rcases h2 with h2 | rfl | rfl
      · simp [IsDig, Char.isAlpha, Char.isUpper, Char.isLower, Char.le_def, UInt32.le_iff_toNat_le] at h1 h2
        omega
      · exact absurd h1 (by decide)
      · exact absurd h1 (by decide)
    · rcases h2 with h2 | h2 | h2 <;> (revert h2; simp [IsDig]; try decide)
  cases h with
  | w a =>
    have hw : w = a.text := hw
    cases h' with
    | w b => exact decide_eq_true (Wd.text_inj (hw.symm.trans hw'))
    | name ex =>
      obtain ⟨⟨c, v, he, hc⟩, hx⟩ := hw'
      have hf := Wd.first (hw.symm.trans he)
      have : a ∉ ex := fun hm => hx.1 _ hm hw
      rcases hc with hc | hc
      · simp [compat, hf.1 hc, this]
      · exact absurd hc hf.2.1
    | str =>
      obtain ⟨v, he⟩ := hw'
      exact absurd rfl (Wd.first (hw.symm.trans he)).2.2.1
    | num =>
      obtain ⟨c, v, he, hc⟩ := hw'
      have hf := Wd.first (hw.symm.trans he)
      rcases hc with hc | hc
      · exact absurd hc hf.2.2.2.1
      · exact decide_eq_true (hf.2.2.2.2 hc)
    | grp b r => exact hw'.elim
  | name ex =>
    obtain ⟨⟨c, v, he, hc⟩, hx⟩ := hw
    cases h' with
    | w a =>
      have hw' : w = a.text := hw'
      have hf := Wd.first (hw'.symm.trans he)
      have : a ∉ ex := fun hm => hx.1 _ hm hw'
      rcases hc with hc | hc
      · simp [compat, hf.1 hc, this]
      · exact absurd hc hf.2.1
    | name _ => rfl
    | str =>
      obtain ⟨v', he'⟩ := hw'
      rw [he] at he'; injection he' with h1 _; subst h1
      exact absurd hc (by decide)
    | num =>
      obtain ⟨c', v', he', hc'⟩ := hw'
      rw [he] at he'; injection he' with h1 _; subst h1
      exact (alpha_dig _ hc hc').elim
    | grp b r => exact hw'.elim
  | str =>
    obtain ⟨v, he⟩ := hw
    cases h' with
    | w a =>
      have hw' : w = a.text := hw'
      exact absurd rfl (Wd.first (hw'.symm.trans he)).2.2.1
    | name _ =>
      obtain ⟨⟨c, v', he', hc⟩, hx⟩ := hw'
      rw [he] at he'; injection he' with h1 _; subst h1
      exact absurd hc (by decide)
    | str => rfl
    | num =>
      obtain ⟨c, v', he', hc⟩ := hw'
      rw [he] at he'; injection he' with h1 _; subst h1
      revert hc; simp [IsDig]; try decide
    | grp b r => exact hw'.elim
  | num =>
    obtain ⟨c, v, he, hc⟩ := hw
    cases h' with
    | w a =>
      have hw' : w = a.text := hw'
      have hf := Wd.first (hw'.symm.trans he)
      rcases hc with hc | hc
      · exact absurd hc hf.2.2.2.1
      · exact decide_eq_true (hf.2.2.2.2 hc)
    | name _ =>
      obtain ⟨⟨c', v', he', hc'⟩, hx⟩ := hw'
      rw [he] at he'; injection he' with h1 _; subst h1
      exact (alpha_dig _ hc' hc).elim
    | str =>
      obtain ⟨v', he'⟩ := hw'
      rw [he] at he'; injection he' with h1 _; subst h1
      revert hc; simp [IsDig]; try decide
    | num => rfl
    | grp b r => exact hw'.elim
  | grp b r => exact hw.elim

/-! ## Pairs of states without a common word -/

section pairs
variable (D : St → St → Bool)

/-- One step of a common word leads to `D`, or satisfies `P` (an item), or `Q` (a group). -/
def steps (P : Hd → Hd → St → St → Bool) (Q : Br → Role → Role → St → St → Bool) (p q : St) : Bool :=
  (next p).all fun x => (next q).all fun y =>
    match x.1, y.1 with
    | .grp b r, .grp b' r' => !decide (b = b') || D x.2 y.2 || D (start r) (start r') || Q b r r' x.2 y.2
    | h, h' => !compat h h' || D x.2 y.2 || P h h' x.2 y.2

def apart (p q : St) : Bool := !(final p && final q) && steps D (fun _ _ _ _ => Bool.false) (fun _ _ _ _ _ => Bool.false) p q

variable {D}

theorem steps_item {P Q} {p q p' q' : St} {h h' : Hd} {w : Str} (hs : steps D P Q p q = Bool.true) (hm : (h, p') ∈ next p) (hm' : (h', q') ∈ next q)
    (hw : h.has y w) (hw' : h'.has z w) : D p' q' = Bool.true ∨ P h h' p' q' = Bool.true := by
  have h1 := List.all_eq_true.1 (List.all_eq_true.1 hs _ hm) _ hm'
  have hc := compat_of hw hw'
  cases h <;> cases h' <;> first | exact hw.elim | exact hw'.elim | (simp only [hc] at h1; simpa using h1)

theorem steps_group {P Q} {p q p' q' : St} {b : Br} {r r' : Role} (hs : steps D P Q p q = Bool.true) (hm : (.grp b r, p') ∈ next p)
    (hm' : (.grp b r', q') ∈ next q) : D p' q' = Bool.true ∨ D (start r) (start r') = Bool.true ∨ Q b r r' p' q' = Bool.true := by
  have h1 := List.all_eq_true.1 (List.all_eq_true.1 hs _ hm) _ hm'
  simpa [or_assoc] using h1

variable (hD : ∀ p q, D p q = Bool.true → apart D p q = Bool.true)
include hD

theorem apart_false {p q : St} {ls : List Str} (h : D p q = Bool.true) (h1 : Acc y p ls) (h2 : Acc z q ls) : False := by
  induction h1 generalizing q with
  | done hf =>
    have := hD _ _ h
    cases h2 with
    | done hf' => simp [apart, hf, hf'] at this
  | item hm hw hs ih =>
    have := hD _ _ h
    simp only [apart, Bool.and_eq_true] at this
    generalize he : _ :: _ = L at h2
    cases h2 with
    | done hf' => simp at he
    | item hm' hw' hs' =>
      simp only [List.cons.injEq] at he
      obtain ⟨rfl, rfl⟩ := he
      rcases steps_item this.2 hm hm' hw hw' with h | h
      · exact ih h hs'
      · simp at h
    | group hm' hc' hs' =>
      simp only [List.cons_append, List.cons.injEq] at he
      obtain ⟨rfl, rfl⟩ := he
      exact opening_not_flat _ (has_flat hw)
  | @group p p' b r c ls hm hc hs ih1 ih2 =>
    have := hD _ _ h
    simp only [apart, Bool.and_eq_true] at this
    generalize he : _ :: _ ++ _ = L at h2
    cases h2 with
    | done hf' => simp at he
    | item hm' hw' hs' =>
      simp only [List.cons_append, List.cons.injEq] at he
      obtain ⟨rfl, rfl⟩ := he
      exact opening_not_flat _ (has_flat hw')
    | @group _ q' b' r' c' ls' hm' hc' hs' =>
      simp only [List.cons_append, List.cons.injEq] at he
      obtain ⟨hb, he⟩ := he
      cases Br.of_opening hb
      obtain ⟨rfl, rfl⟩ := balanced_split hc.balanced hc'.balanced ⟨_, Br.mem _⟩ ⟨_, Br.mem _⟩ he
      rcases steps_group this.2 hm hm' with h | h | h
      · exact ih2 h hs'
      · exact ih1 h hc'
      · simp at h

/-- What is at the beginning of a common word. -/
theorem step_cases {P Q} {p q : St} {ls : List Str} (hs : steps D P Q p q = Bool.true) (h1 : Acc y p ls) (h2 : Acc z q ls) :
    (ls = [] ∧ final p = Bool.true ∧ final q = Bool.true) ∨
    (∃ h h' p' q' w rest, ls = w :: rest ∧ h.has y w ∧ h'.has z w ∧ P h h' p' q' = Bool.true ∧ Acc y p' rest ∧ Acc z q' rest) ∨
    ∃ b r r' p' q' c rest, ls = b.opening :: c ++ b.closing :: rest ∧ Q b r r' p' q' = Bool.true ∧ Acc y (start r) c ∧ Acc z (start r') c ∧
      Acc y p' rest ∧ Acc z q' rest := by
  cases h1 with
  | done hf =>
    cases h2 with
    | done hf' => exact .inl ⟨rfl, hf, hf'⟩
  | item hm hw hs1 =>
    generalize he : _ :: _ = L at h2
    cases h2 with
    | done hf' => simp at he
    | item hm' hw' hs' =>
      simp only [List.cons.injEq] at he
      obtain ⟨rfl, rfl⟩ := he
      rcases steps_item hs hm hm' hw hw' with h | h
      · exact (apart_false hD h hs1 hs').elim
      · exact .inr (.inl ⟨_, _, _, _, _, _, rfl, hw, hw', h, hs1, hs'⟩)
    | group hm' hc' hs' =>
      simp only [List.cons_append, List.cons.injEq] at he
      obtain ⟨rfl, rfl⟩ := he
      exact (opening_not_flat _ (has_flat hw)).elim
  | @group _ p' b r c ls hm hc hs1 =>
    generalize he : _ :: _ ++ _ = L at h2
    cases h2 with
    | done hf' => simp at he
    | item hm' hw' hs' =>
      simp only [List.cons_append, List.cons.injEq] at he
      obtain ⟨rfl, rfl⟩ := he
      exact (opening_not_flat _ (has_flat hw')).elim
    | @group _ q' b' r' c' ls' hm' hc' hs' =>
      simp only [List.cons_append, List.cons.injEq] at he
      obtain ⟨hb, he⟩ := he
      cases Br.of_opening hb
      obtain ⟨rfl, rfl⟩ := balanced_split hc.balanced hc'.balanced ⟨_, Br.mem _⟩ ⟨_, Br.mem _⟩ he
      rcases steps_group hs hm hm' with h | h | h
      · exact (apart_false hD h hs1 hs').elim
      · exact (apart_false hD h hc hc').elim
      · exact .inr (.inr ⟨_, _, _, _, _, _, _, rfl, h, hc, hc', hs1, hs'⟩)

end pairs

/-! ## The way to the difference -/

/-- Kinds of items. -/
inductive Tk where
  | w (k : Wd)
  | name
  | op (b : Br)
  | cl (b : Br)
  deriving DecidableEq

def Tk.has : Tk → Str → Prop
  | .w k, x => x = k.text
  | .name, x => ∃ c v, x = c :: v ∧ (c.isAlpha = Bool.true ∨ c = '_')
  | .op b, x => x = b.opening
  | .cl b, x => x = b.closing

/-- The first items are of the given kinds. -/
def Match : List (List Tk) → List Str → Prop
  | [], _ => True
  | _ :: _, [] => False
  | ts :: l, x :: xs => (∃ t ∈ ts, t.has x) ∧ Match l xs

def Tk.sub (ts : List Tk) (t : Tk) : Bool := decide (t ∈ ts) || match t with
  | .w k => k.isName && decide (.name ∈ ts)
  | _ => Bool.false

def weaker : List (List Tk) → List (List Tk) → Bool
  | _, [] => Bool.true
  | [], _ :: _ => Bool.false
  | ts :: l, us :: m => ts.all (Tk.sub us) && weaker l m

theorem Wd.alpha {k : Wd} (h : k.isName = Bool.true) : ∃ c v, k.text = c :: v ∧ (c.isAlpha = Bool.true ∨ c = '_') := by
  cases k <;> first | exact absurd h (by decide) | exact ⟨_, _, rfl, by decide⟩

theorem Match.weaker {l m : List (List Tk)} {xs : List Str} (h : weaker l m = Bool.true) (hl : Match l xs) : Match m xs := by
  induction m generalizing l xs with
  | nil => cases xs <;> trivial
  | cons us m ih =>
    cases l with
    | nil => simp [Auto.weaker] at h
    | cons ts l =>
      cases xs with
      | nil => exact hl.elim
      | cons x xs =>
        simp only [Auto.weaker, Bool.and_eq_true, List.all_eq_true] at h
        obtain ⟨⟨t, ht, hx⟩, hl⟩ := hl
        refine ⟨?_, ih h.2 hl⟩
        have h1 := h.1 t ht
        simp only [Tk.sub, Bool.or_eq_true, decide_eq_true_eq] at h1
        rcases h1 with h1 | h1
        · exact ⟨t, h1, hx⟩
        · cases t with
          | w k =>
            simp only [Bool.and_eq_true, decide_eq_true_eq] at h1
            have hx : x = k.text := hx
            exact ⟨.name, h1.2, hx ▸ Wd.alpha h1.1⟩
          | _ => simp at h1

/-- The last items before a state, the last one first. -/
def hist : St → List (List Tk)
  | .strf | .strfM => [[.w .stringifier]]
  | .ty .l (.op _) => [[.w .long]]
  | .ty .ul (.op _) => [[.w .long], [.w .unsigned]]
  | .ty .uid (.op _) => [[.w .unsigned]]
  | .ty .rid (.op _) => [[.w .unrestricted]]
  | .ty .d (.op _) => [[.name, .cl .round, .cl .angle]]
  | .ty .e (.op _) => [[.w .query]]
  | .ty .l _ => [[.w .long]]
  | .ty .ul _ => [[.w .long], [.w .unsigned]]
  | .ty .u _ | .ty .uid _ => [[.w .unsigned]]
  | .ty .r _ | .ty .rid _ => [[.w .unrestricted]]
  | .ifc => [[.w .interface]]
  | .mix => [[.w .mixin], [.w .interface]]
  | .atty (.attr _) => [[.w .attr_]]
  | .unS | .idS => [[.op .round]]
  | .eaS => [[.op .square]]
  | .eaEq | .dictVal | .argVal | .constVal _ => [[.w .eq]]
  | .atty .argOpt => [[.w .optional]]
  | .enC => [[.w .comma]]
  | _ => []

def histStep (p : St) : Hd → St → Bool
  | .w k, p' => weaker ([.w k] :: hist p) (hist p')
  | .name _, p' => weaker ([.name] :: hist p) (hist p')
  | .grp b r, p' => weaker [[.cl b]] (hist p') && weaker ([.op b] :: hist p) (hist (start r))
  | _, p' => (hist p').isEmpty

def histOk (p : St) : Bool := (next p).all fun x => histStep p x.1 x.2

def Hist (p : St) (pre : List Str) : Prop := Match (hist p) pre.reverse

theorem Hist.nil {p : St} {pre : List Str} (h : (hist p).isEmpty = Bool.true) : Hist p pre := by
  have : hist p = [] := by simpa using h
  cases hr : pre.reverse <;> simp [Hist, this, hr, Match]

theorem Hist.step {p p' : St} {h : Hd} {w : Str} {pre : List Str} (hp : Hist p pre) (ho : histOk p = Bool.true) (hm : (h, p') ∈ next p)
    (hw : h.has y w) : Hist p' (pre ++ [w]) := by
  have h1 := List.all_eq_true.1 ho _ hm
  cases h with
  | w k =>
    have hw : w = k.text := hw
    refine Match.weaker h1 ?_
    simp only [List.reverse_append, List.reverse_cons, List.reverse_nil, List.nil_append, List.cons_append]
    exact ⟨⟨_, List.mem_singleton_self _, hw⟩, hp⟩
  | grp b r => exact hw.elim
  | name ex =>
    refine Match.weaker h1 ?_
    simp only [List.reverse_append, List.reverse_cons, List.reverse_nil, List.nil_append, List.cons_append]
    exact ⟨⟨_, List.mem_singleton_self _, hw.1⟩, hp⟩
  | str => exact .nil h1
  | num => exact .nil h1

theorem Hist.into {p p' : St} {b : Br} {r : Role} {pre : List Str} (hp : Hist p pre) (ho : histOk p = Bool.true) (hm : (.grp b r, p') ∈ next p) :
    Hist (start r) (pre ++ [b.opening]) := by
  have h1 := List.all_eq_true.1 ho _ hm
  refine Match.weaker (Bool.and_eq_true_iff.1 h1).2 ?_
  simp only [List.reverse_append, List.reverse_cons, List.reverse_nil, List.nil_append, List.cons_append]
  exact ⟨⟨_, List.mem_singleton_self _, rfl⟩, hp⟩

theorem Hist.over {p p' : St} {b : Br} {r : Role} {pre : List Str} (ho : histOk p = Bool.true) (hm : (.grp b r, p') ∈ next p) :
    Hist p' (pre ++ [b.closing]) := by
  have h1 := List.all_eq_true.1 ho _ hm
  refine Match.weaker (Bool.and_eq_true_iff.1 h1).1 ?_
  simp only [List.reverse_append, List.reverse_cons, List.reverse_nil, List.nil_append, List.cons_append]
  exact ⟨⟨_, List.mem_singleton_self _, rfl⟩, by cases pre.reverse <;> trivial⟩

section pair
variable (D : St → St → Bool)

/-- The only common word is the empty one. -/
def onlyEnd (p q : St) : Bool := steps D (fun _ _ _ _ => Bool.false) (fun _ _ _ _ _ => Bool.false) p q

/-- An attribute whose type is a union, and an operation with the name `attribute`. -/
def attrSemi : St → St → Bool
  | .ty .d (.attr _), .semi _ => Bool.true
  | _, _ => Bool.false

def Pair (p q : St) (pre : List Str) : Prop :=
  attrSemi p q = Bool.true → ∃ a c, pre = a ++ Wd.attr_.text :: c!"(" :: c ++ [c!")"] ∧ Balanced c

def pairOk (p q : St) : Bool :=
  (next p).all fun x => (next q).all fun y =>
    match x.1, y.1 with
    | .grp b r, .grp b' r' => !decide (b = b') || !attrSemi (start r) (start r') &&
        (!attrSemi x.2 y.2 || decide (b = .round) && weaker (hist p) [[.w .attr_]])
    | h, h' => !compat h h' || !attrSemi x.2 y.2

variable {D}

theorem Pair.step {p q p' q' : St} {h h' : Hd} {w : Str} {pre : List Str} (ho : pairOk p q = Bool.true) (hm : (h, p') ∈ next p)
    (hm' : (h', q') ∈ next q) (hw : h.has y w) (hw' : h'.has z w) : Pair p' q' pre := by
  have h1 := List.all_eq_true.1 (List.all_eq_true.1 ho _ hm) _ hm'
  have hc := compat_of hw hw'
  have h2 : attrSemi p' q' = Bool.false := by
    cases h <;> cases h' <;> first | exact hw.elim | exact hw'.elim | (simp only [hc] at h1; simpa using h1)
  intro h; simp [h2] at h

theorem Pair.into {p q p' q' : St} {b : Br} {r r' : Role} {pre : List Str} (ho : pairOk p q = Bool.true) (hm : (.grp b r, p') ∈ next p)
    (hm' : (.grp b r', q') ∈ next q) : Pair (start r) (start r') pre := by
  have h1 := List.all_eq_true.1 (List.all_eq_true.1 ho _ hm) _ hm'
  simp only [decide_true, Bool.not_true, Bool.false_or, Bool.and_eq_true] at h1
  intro h; simp [h] at h1

theorem Pair.over {p q p' q' : St} {b : Br} {r r' : Role} {c pre : List Str} (ho : pairOk p q = Bool.true) (hp : Hist p pre)
    (hm : (.grp b r, p') ∈ next p) (hm' : (.grp b r', q') ∈ next q) (hc : Balanced c) :
    Pair p' q' (pre ++ b.opening :: c ++ [b.closing]) := by
  have h1 := List.all_eq_true.1 (List.all_eq_true.1 ho _ hm) _ hm'
  simp only [decide_true, Bool.not_true, Bool.false_or, Bool.and_eq_true] at h1
  intro h
  simp only [h, Bool.not_true, Bool.false_or, Bool.and_eq_true, decide_eq_true_eq] at h1
  obtain ⟨-, rfl, h2⟩ := h1
  have h3 : Match [[.w .attr_]] pre.reverse := Match.weaker h2 hp
  generalize hr : pre.reverse = l at h3
  match l, h3 with
  | x :: l, ⟨⟨t, ht, hx⟩, _⟩ =>
    simp only [List.mem_singleton] at ht
    subst ht
    cases hx
    have hr := congrArg List.reverse hr
    simp only [List.reverse_reverse, List.reverse_cons] at hr
    subst hr
    exact ⟨l.reverse, c, by simp [Br.opening, Br.closing], hc⟩

variable (hD : ∀ p q, D p q = Bool.true → apart D p q = Bool.true)
include hD

theorem onlyEnd_spec {p q : St} {ls : List Str} (h : onlyEnd D p q = Bool.true) (h1 : Acc y p ls) (h2 : Acc z q ls) : ls = [] := by
  rcases step_cases hD h h1 h2 with ⟨h, -⟩ | ⟨_, _, _, _, _, _, _, _, _, hP, _⟩ | ⟨_, _, _, _, _, _, _, _, hQ, _⟩
  · exact h
  · simp at hP
  · simp at hQ

end pair

/-- The end of a group, or of the text. -/
def Tail (t : List Str) : Prop := t = [] ∨ ∃ c t', t = c :: t' ∧ Closing c

theorem Tail.append {t rest : List Str} {c : Str} (h : Tail t) (hc : Closing c) : Tail (t ++ c :: rest) := by
  rcases h with rfl | ⟨c', t', rfl, h⟩
  · exact .inr ⟨_, _, rfl, hc⟩
  · exact .inr ⟨_, _, rfl, h⟩

section sync
variable (D A : St → St → Bool)

/-- The states that read the same. -/
def along (p q : St) : Bool :=
  (next p).all fun x => (next q).all fun y =>
    match x.1, y.1 with
    | .grp b r, .grp b' r' => !decide (b = b') || (D x.2 y.2 || A (start r) (start r')) && (D (start r) (start r') || A x.2 y.2)
    | h, h' => !compat h h' || A x.2 y.2

variable {D A}
variable (hD : ∀ p q, D p q = Bool.true → apart D p q = Bool.true)
variable (hA : ∀ p q, A p q = Bool.true → along D A p q = Bool.true ∧ histOk p = Bool.true ∧ histOk q = Bool.true ∧
  pairOk p q = Bool.true)
include hD hA

theorem sync {p q : St} {L a u v b pre : List Str} (h : A p q = Bool.true) (h1 : Acc y p L) (he : L = a ++ u ++ b) (h2 : Acc z q (a ++ v ++ b))
    (hu : ∀ x ∈ u, Flat x) (hv : ∀ x ∈ v, Flat x) (hp : Hist p pre) (hq : Hist q pre)
    (hr : Pair p q pre) :
    ∃ p' q' b' t, A p' q' = Bool.true ∧ b = b' ++ t ∧ Tail t ∧ Acc y p' (u ++ b') ∧ Acc z q' (v ++ b') ∧ Hist p' (pre ++ a) ∧ Hist q' (pre ++ a) ∧
      Pair p' q' (pre ++ a) := by
  induction h1 generalizing q a b pre with
  | done hf =>
    have : a = [] ∧ u = [] ∧ b = [] := by simpa [and_assoc] using he.symm
    obtain ⟨rfl, rfl, rfl⟩ := this
    exact ⟨_, _, [], [], h, rfl, .inl rfl, .done hf, by simpa using h2, by simpa using hp, by simpa using hq, by simpa using hr⟩
  | @item p p' hd w ls hm hw hs ih =>
    cases a with
    | nil =>
      refine ⟨_, _, b, [], h, by simp, .inl rfl, ?_, by simpa using h2, by simpa using hp, by simpa using hq, by simpa using hr⟩
      have : u ++ b = w :: ls := by simpa using he.symm
      rw [this]
      exact .item hm hw hs
    | cons x a =>
      simp only [List.cons_append, List.cons.injEq] at he
      obtain ⟨rfl, he⟩ := he
      obtain ⟨ha, ho, ho', hpo⟩ := hA _ _ h
      simp only [List.cons_append] at h2
      generalize hg : w :: (a ++ v ++ b) = M at h2
      cases h2 with
      | done hf' => simp at hg
      | @item _ q' hd' w' ls' hm' hw' hs' =>
        simp only [List.cons.injEq] at hg
        obtain ⟨rfl, rfl⟩ := hg
        have h1 := List.all_eq_true.1 (List.all_eq_true.1 ha _ hm) _ hm'
        have hc := compat_of hw hw'
        have h3 : A p' q' = Bool.true := by
          cases hd <;> cases hd' <;> first | exact hw.elim | exact hw'.elim | (simp only [hc] at h1; simpa using h1)
        obtain ⟨p2, q2, b', t, h4, h5, h6, h7, h8, h9, h10, h11⟩ := ih h3 he hs' (hp.step ho hm hw) (hq.step ho' hm' hw') (.step hpo hm hm' hw hw')
        exact ⟨p2, q2, b', t, h4, h5, h6, h7, h8, by simpa using h9, by simpa using h10, by simpa using h11⟩
      | group hm' hc' hs' =>
        simp only [List.cons_append, List.cons.injEq] at hg
        obtain ⟨rfl, _⟩ := hg
        exact (opening_not_flat _ (has_flat hw)).elim
  | @group p p' br r c ls hm hc hs ih1 ih2 =>
    cases a with
    | nil =>
      refine ⟨_, _, b, [], h, by simp, .inl rfl, ?_, by simpa using h2, by simpa using hp, by simpa using hq, by simpa using hr⟩
      have : u ++ b = br.opening :: c ++ br.closing :: ls := by simpa using he.symm
      rw [this]
      exact .group hm hc hs
    | cons x a =>
      simp only [List.cons_append, List.cons.injEq] at he
      obtain ⟨rfl, he⟩ := he
      obtain ⟨ha, ho, ho', hpo⟩ := hA _ _ h
      simp only [List.cons_append] at h2
      generalize hg : br.opening :: (a ++ v ++ b) = M at h2
      cases h2 with
      | done hf' => simp at hg
      | item hm' hw' hs' =>
        simp only [List.cons.injEq] at hg
        obtain ⟨rfl, _⟩ := hg
        exact (opening_not_flat _ (has_flat hw')).elim
      | @group _ q' b' r' c' ls' hm' hc' hs' =>
        simp only [List.cons_append, List.cons.injEq] at hg
        obtain ⟨hb, hg⟩ := hg
        cases Br.of_opening hb
        have h1 := List.all_eq_true.1 (List.all_eq_true.1 ha _ hm) _ hm'
        simp only [decide_true, Bool.not_true, Bool.false_or, Bool.and_eq_true, Bool.or_eq_true] at h1
        have hcl : Closing br.closing := ⟨_, Br.mem _⟩
        have hnu : br.closing ∉ u := fun hm => closing_not_flat hcl (hu _ hm)
        rcases split_cases he hnu with ⟨b1, rfl, rfl⟩ | ⟨a1, rfl, rfl⟩
        · have hbal := Balanced.exchange hu hv hc.balanced
          obtain ⟨rfl, rfl⟩ := balanced_split hbal hc'.balanced hcl hcl (by simpa using hg)
          rcases h1.1 with hd | h3
          · exact (apart_false hD hd hs hs').elim
          · obtain ⟨p2, q2, b', t, h4, rfl, h6, h7, h8, h9, h10, h11⟩ :=
              ih1 (pre := pre ++ [br.opening]) h3 rfl hc' (hp.into ho hm) (hq.into ho' hm') (.into hpo hm hm')
            exact ⟨p2, q2, b', t ++ br.closing :: ls, h4, by simp, h6.append hcl, h7, h8, by simpa using h9, by simpa using h10, by simpa using h11⟩
        · obtain ⟨rfl, hls⟩ := balanced_split hc.balanced hc'.balanced hcl hcl (r := a1 ++ v ++ b) (by simpa using hg)
          subst hls
          rcases h1.2 with hd | h3
          · exact (apart_false hD hd hc hc').elim
          · obtain ⟨p2, q2, b', t, h4, h5, h6, h7, h8, h9, h10, h11⟩ :=
              ih2 (pre := pre ++ br.opening :: c ++ [br.closing]) h3 rfl hs' (.over ho hm) (.over ho' hm') (.over hpo hp hm hm' hc.balanced)
            exact ⟨p2, q2, b', t, h4, h5, h6, h7, h8, by simpa using h9, by simpa using h10, by simpa using h11⟩

end sync

/-! ## Numbers for states -/

def K.code : K → Nat
  | .union => 0
  | .one => 1
  | .recKey => 2
  | .it => 3
  | .pair => 4
  | .arg => 5
  | .var => 6
  | .argOpt => 7
  | .dict => 8
  | .typedef => 9
  | .callback => 10
  | .const .iface => 11
  | .const .mixin => 12
  | .const .nspace => 13
  | .attr .iface => 14
  | .attr .mixin => 15
  | .attr .nspace => 16
  | .op .iface => 17
  | .op .mixin => 18
  | .op .nspace => 19

def TP.code : TP → Nat
  | .start => 0
  | .u => 1
  | .ul => 2
  | .r => 3
  | .l => 4
  | .uid => 5
  | .rid => 6
  | .recd => 7
  | .gen => 8
  | .d => 9
  | .e => 10

def St.code : St → Nat
  | .ty p k => 20 * p.code + k.code
  | .atty k => 220 + k.code
  | .fin => 240
  | .unS => 241
  | .ro => 242
  | .strf => 243
  | .strfM => 244
  | .inh => 245
  | .stat => 246
  | .ctor => 247
  | .itr => 248
  | .asy => 249
  | .asy2 => 250
  | .asy3 => 251
  | .mpl => 252
  | .stl => 253
  | .dmem => 254
  | .dmem1 => 255
  | .dictDef => 256
  | .dictVal => 257
  | .dictSemi => 258
  | .argS => 259
  | .argN => 260
  | .arg1 => 261
  | .argDef => 262
  | .argVal => 263
  | .argEnd => 264
  | .argVar => 265
  | .eaS => 266
  | .eaN => 267
  | .ea1 => 268
  | .eaEq => 269
  | .ea2 => 270
  | .eaE => 271
  | .idS => 272
  | .idN => 273
  | .idE => 274
  | .enS => 275
  | .enE => 276
  | .enC => 277
  | .doc => 278
  | .def1 => 279
  | .cb => 280
  | .cbEq => 281
  | .ifc => 282
  | .ifcN => 283
  | .ifcI => 284
  | .ifcX => 285
  | .ifcB => 286
  | .mix => 287
  | .mixB => 288
  | .par => 289
  | .nsp => 290
  | .nspB => 291
  | .dic => 292
  | .dicN => 293
  | .dicI => 294
  | .dicB => 295
  | .enu => 296
  | .enuB => 297
  | .inc1 => 298
  | .inc2 => 299
  | .docSemi => 300
  | .mem .iface => 301
  | .mem .mixin => 302
  | .mem .nspace => 303
  | .mem1 .iface => 304
  | .mem1 .mixin => 305
  | .mem1 .nspace => 306
  | .semi .iface => 307
  | .semi .mixin => 308
  | .semi .nspace => 309
  | .roA .iface => 310
  | .roA .mixin => 311
  | .roA .nspace => 312
  | .constEq .iface => 313
  | .constEq .mixin => 314
  | .constEq .nspace => 315
  | .constVal .iface => 316
  | .constVal .mixin => 317
  | .constVal .nspace => 318
  | .opArgs .iface => 319
  | .opArgs .mixin => 320
  | .opArgs .nspace => 321

def kinds : List K := [.union, .one, .recKey, .it, .pair, .arg, .var, .argOpt, .dict, .typedef, .callback, .const .iface, .const .mixin, .const .nspace, .attr .iface, .attr .mixin, .attr .nspace, .op .iface, .op .mixin, .op .nspace]

def points : List TP := [.start, .u, .ul, .r, .l, .uid, .rid, .recd, .gen, .d, .e]

def states : List St :=
  points.flatMap (fun p => kinds.map fun k => .ty p k) ++ kinds.map .atty ++
  [.fin, .unS, .ro, .strf, .strfM, .inh, .stat, .ctor, .itr, .asy, .asy2, .asy3, .mpl, .stl, .dmem, .dmem1,
   .dictDef, .dictVal, .dictSemi, .argS, .argN, .arg1, .argDef, .argVal, .argEnd, .argVar, .eaS, .eaN, .ea1,
   .eaEq, .ea2, .eaE, .idS, .idN, .idE, .enS, .enE, .enC, .doc, .def1, .cb, .cbEq, .ifc, .ifcN, .ifcI, .ifcX,
   .ifcB, .mix, .mixB, .par, .nsp, .nspB, .dic, .dicN, .dicI, .dicB, .enu, .enuB, .inc1, .inc2, .docSemi,
   .mem .iface, .mem .mixin, .mem .nspace, .mem1 .iface, .mem1 .mixin, .mem1 .nspace, .semi .iface, .semi .mixin,
   .semi .nspace, .roA .iface, .roA .mixin, .roA .nspace, .constEq .iface, .constEq .mixin, .constEq .nspace,
   .constVal .iface, .constVal .mixin, .constVal .nspace, .opArgs .iface, .opArgs .mixin, .opArgs .nspace]

theorem mem_kinds (k : K) : k ∈ kinds := by
  cases k <;> first | decide | (rename_i b; cases b <;> decide)

theorem mem_points (p : TP) : p ∈ points := by cases p <;> decide

theorem mem_states (p : St) : p ∈ states := by
  unfold states
  simp only [List.mem_append, List.mem_flatMap, List.mem_map]
  cases p with
  | ty p k => exact .inl (.inl ⟨p, mem_points p, k, mem_kinds k, rfl⟩)
  | atty k => exact .inl (.inr ⟨k, mem_kinds k, rfl⟩)
  | _ => right; first | decide | (rename_i b; cases b <;> decide)

/-- A set of pairs of states as numbers. -/
def inRows (row : St → Nat) (p q : St) : Bool := (row p).testBit q.code

def forRows (row : St → Nat) (f : St → St → Bool) : Bool :=
  states.all fun p => (row p == 0) || states.all fun q => !inRows row p q || f p q

theorem forRows_spec {row : St → Nat} {f : St → St → Bool} (h : forRows row f = Bool.true) {p q : St} (hr : inRows row p q = Bool.true) :
    f p q = Bool.true := by
  have h1 := List.all_eq_true.1 h p (mem_states p)
  rcases Bool.or_eq_true_iff.1 h1 with h2 | h2
  · have : row p = 0 := by simpa using h2
    simp [inRows, this] at hr
  · have h3 := List.all_eq_true.1 h2 q (mem_states q)
    simpa [hr] using h3

end Verif.Auto
