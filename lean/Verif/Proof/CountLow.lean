import Verif.Proof.CountLocal
import Verif.Proof.Trace

/-! # What is read has been looked at -/

namespace Verif.Count
open Nom Spec

variable {α β : Type}

/-- The looks of a list of attempts. -/
def looks (L : List (Attempt Char)) : Nat := (L.map fun a => (leaf _ a.leaf a.place).1).sum

theorem looks_append (C D : List (Attempt Char)) : looks (C ++ D) = looks C + looks D := by
  simp [looks]

def Low (s : Str) (L : List (Attempt Char)) (x : Res Char α) : Prop := ∀ r v, x = .ok r v → s.length ≤ looks L + r.length

theorem Low.err {s : Str} {L : List (Attempt Char)} {e : Err Char} : Low s L (.err e : Res Char β) := fun _ _ h => by cases h

theorem Low.here {s : Str} {L : List (Attempt Char)} {v : β} : Low s L (.ok s v : Res Char β) := by
  rintro _ _ ⟨⟩; omega

theorem Low.to {s r : Str} {L : List (Attempt Char)} {v : α} {v' : β} (h : Low s L (.ok r v)) : Low s L (.ok r v' : Res Char β) := by
  rintro _ _ ⟨⟩; exact h _ _ rfl

theorem Low.append {s r : Str} {C D : List (Attempt Char)} {v : α} {x : Res Char β} (h : Low s C (.ok r v)) (h' : Low r D x) :
    Low s (C ++ D) x := fun q w e => by
  have h1 := h r v rfl
  have h2 := h' q w e
  rw [looks_append]
  omega

theorem Low.again {s : Str} {C D : List (Attempt Char)} {y : Res Char β} (h' : Low s D y) : Low s (C ++ D) y := fun q w e => by
  have h2 := h' q w e
  rw [looks_append]
  omega

theorem Low.cons {s : Str} {L : List (Attempt Char)} {a : α} {x : Res Char (List α)} (h : Low s L x) : Low s L (consRes a x) := by
  intro r v e
  cases x <;> simp [consRes] at e
  obtain ⟨rfl, rfl⟩ := e
  exact h _ _ rfl

theorem low {g : G α} {s : Str} {L : List (Attempt Char)} {x : Res Char α} (h : Traced charLeaf g s L x) : Low s L x := by
  refine Traced.rec
    (motive_1 := fun {α} g s L x _ => Low s L x)
    (motive_2 := fun {α β} sep g s L x _ => Low s L x)
    ?_ ?_ ?_ ?_ ?_ ?_ ?_ ?_ ?_ ?_ ?_ ?_ ?_ ?_ ?_ ?_ ?_ ?_ ?_ ?_ ?_ ?_ ?_ ?_ ?_ ?_ ?_ ?_ ?_ ?_ h
  · intro α a s; exact .here
  · intro α l s r v e
    have h1 := (Local.leaf l s s rfl).2
    rw [same_leaf, e] at h1
    obtain ⟨-, w, h2, -, h3⟩ := h1
    have := congrArg List.length h2
    simp [looks] at this ⊢
    omega
  · rintro α β g f s r a x c d _ _ h1 h3; exact h1.append h3
  · rintro α β g f s e c _ h1; exact .err
  · rintro α g h s r a c _ h1; exact h1
  · rintro α g h s p k x c d h0 _ h1 h3; exact h3.again
  · rintro α g h s e c _ he h1; exact .err
  · intro α s; exact .err
  · rintro α g s r a c _ h1; exact h1.to
  · rintro α g s p k c _ h1; exact .here
  · rintro α g s e c _ he h1; exact .err
  · rintro α g s p k c _ h1; exact .here
  · rintro α g s e c _ he h1; exact .err
  · rintro α g s a c _ h1; exact .err
  · rintro α g s r a x c d _ hne _ h1 h3; exact h1.append h3.cons
  · rintro α β sep g s p k c _ h1; exact .here
  · rintro α β sep g s e c _ he h1; exact .err
  · rintro α β sep g s a c _ h1; exact .err
  · rintro α β sep g s r a x c d _ hne _ h1 h3; exact h1.append h3.cons
  · rintro α β sep g s e c _ h1; exact .err
  · rintro α β sep g s a c _ h1; exact .err
  · rintro α β sep g s r a x c d _ hne _ h1 h3; exact h1.append h3.cons
  · rintro α N s x c _ h1; exact h1
  · rintro α β sep g s p k c _ h1; exact .here
  · rintro α β sep g s e c _ he h1; exact .err
  · rintro α β sep g s b c _ h1; exact .err
  · rintro α β sep g s r p b k c d _ hne _ h1 h3; exact .here
  · rintro α β sep g s r b e c d _ hne _ he h1 h3; exact .err
  · rintro α β sep g s r b a c d _ hne _ h1 h3; exact .err
  · rintro α β sep g s r q b a x c d e _ hne _ hne2 _ h1 h3 h5; exact (h1.append h3).append h5.cons

/-! ## Each attempt looks at a character -/

theorem seq_pos {p : C α} {f : α → C β} {i : Str} (h : 1 ≤ (p i).1) : 1 ≤ (seq p f i).1 := by
  unfold seq
  split <;> simp <;> omega

theorem orElse_pos {p q : C α} {i : Str} (h : 1 ≤ (p i).1) : 1 ≤ (orElse p q i).1 := by
  unfold orElse
  split <;> simp <;> omega

theorem tag_pos (a : Char) (t i : Str) : 1 ≤ (tag (a :: t) i).1 := by
  cases i with
  | nil => exact Nat.le_refl _
  | cons b i => simp only [tag, compared]; split <;> omega

theorem sp_pos (i : Str) : 1 ≤ (sp i).1 := by
  have h1 : 1 ≤ (alt [lineComment, whitespace, blockComment] i).1 := orElse_pos (seq_pos (tag_pos _ _ i))
  have h2 : 1 ≤ (many0 (alt [lineComment, whitespace, blockComment]) i).1 := by
    unfold many0 many0Loop
    repeat' split
    all_goals simp
    all_goals omega
  unfold sp recognize
  split <;> exact h2

theorem ws_pos {p : C α} (i : Str) : 1 ≤ (ws p i).1 := seq_pos (sp_pos i)

theorem leaf_pos (l : Leaf α) (i : Str) : 1 ≤ (leaf α l i).1 := by
  cases l with
  | punct p => exact seq_pos (ws_pos i)
  | kw k => exact seq_pos (ws_pos i)
  | ident => exact ws_pos i
  | dec => exact ws_pos i
  | hex => exact ws_pos i
  | oct => exact ws_pos i
  | float => exact ws_pos i
  | string => exact ws_pos i

theorem length_le_looks (L : List (Attempt Char)) : L.length ≤ looks L := by
  induction L with
  | nil => exact Nat.zero_le _
  | cons a L ih =>
    have h1 := leaf_pos a.leaf a.place
    simp only [looks, List.map_cons, List.sum_cons, List.length_cons] at ih ⊢
    omega

end Verif.Count
