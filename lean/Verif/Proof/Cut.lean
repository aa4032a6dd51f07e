import Verif.Proof.Trace
import Verif.Proof.Longest

/-! # There is only one way to cut a text into lexemes -/

namespace Verif.Cut
open Nom Spec

variable {α β : Type}

/-- The terminal cannot be read. -/
def NoOk (l : Leaf α) (s : Str) : Prop := ∀ r v, charLeaf α l s ≠ .ok r v

/-- It is known that the first `n` of the numbers cannot be read. -/
def Known (n : Nat) (s : Str) : Prop := (1 ≤ n → NoOk .float s) ∧ (2 ≤ n → NoOk .dec s) ∧ (3 ≤ n → NoOk .hex s)

/-- When a terminal may be tried. -/
def Level (n : Nat) : Leaf α → Prop
  | .punct p => p ≠ .dot ∧ p ≠ .minus
  | .dec => 1 ≤ n
  | .hex => 2 ≤ n
  | .oct => 3 ≤ n
  | _ => True

/-- Numbers are tried in order: those with a fraction or an exponent, decimal, hexadecimal and octal ones. -/
def Due (l : Leaf α) (s : Str) : Prop := ∃ n, Known n s ∧ Level n l

theorem Level.plain {n : Nat} {l : Leaf α} (h : Level n l) : Plain l := by
  cases l <;> first | exact h | trivial

theorem known_zero (s : Str) : Known 0 s := ⟨by omega, by omega, by omega⟩

/-- The place after a terminal that is due. -/
def Next (s r : Str) : Prop := ∃ (α : Type) (l : Leaf α) (v : α), Due l s ∧ charLeaf α l s = .ok r v

inductive Reach (s : Str) : Str → Prop where
  | refl : Reach s s
  | step {r t : Str} : Reach s r → Next r t → Reach s t

theorem Reach.trans {s r t : Str} (h : Reach s r) (h' : Reach r t) : Reach s t := by
  induction h' with
  | refl => exact h
  | step _ h2 ih => exact ih.step h2

/-- What is known after a failure. -/
def Teaches (n : Nat) (g : G α) (m : Nat) : Prop :=
  ∀ s L p k, Known n s → Traced charLeaf g s L (.err (.error p k)) → Known m s

/-- The terminals of a grammar expression are tried in order, if `n` of the numbers are known to fail before. -/
def Neat : Nat → {α : Type} → G α → Prop
  | _, _, .ret _ => True
  | n, _, .leaf l => Level n l
  | n, _, .bind g f => Neat n g ∧ ∀ a, Neat 0 (f a)
  | n, _, .orElse g h => Neat n g ∧ ∃ m, Teaches n g m ∧ Neat m h
  | _, _, .altEnd => True
  | n, _, .opt g => Neat n g
  | _, _, .many0 g => Neat 0 g
  | _, _, .separatedList sep g => Neat 0 sep ∧ Neat 0 g
  | _, _, .separatedNonemptyList sep g => Neat 0 sep ∧ Neat 0 g
  | _, _, .call _ => True

def Fit (s : Str) (L : List (Attempt Char)) (x : Res Char α) : Prop :=
  (∀ a ∈ L, Reach s a.place ∧ Due a.leaf a.place) ∧ ∀ r v, x = .ok r v → Reach s r

theorem Fit.err {s : Str} {L : List (Attempt Char)} {x : Res Char α} {e : Err Char} (h : Fit s L x) : Fit s L (.err e : Res Char β) :=
  ⟨h.1, by simp⟩

theorem Fit.here {s : Str} {L : List (Attempt Char)} {x : Res Char α} {v : β} (h : Fit s L x) : Fit s L (.ok s v : Res Char β) :=
  ⟨h.1, by rintro _ _ ⟨⟩; exact .refl⟩

theorem Fit.to {s r : Str} {L : List (Attempt Char)} {v : α} {v' : β} (h : Fit s L (.ok r v)) : Fit s L (.ok r v' : Res Char β) :=
  ⟨h.1, by rintro _ _ ⟨⟩; exact h.2 _ _ rfl⟩

theorem Fit.append {s r : Str} {C D : List (Attempt Char)} {v : α} {x : Res Char β} (h : Fit s C (.ok r v)) (h' : Fit r D x) :
    Fit s (C ++ D) x := by
  have h0 := h.2 r v rfl
  refine ⟨fun a ha => ?_, fun q w e => h0.trans (h'.2 q w e)⟩
  rcases List.mem_append.1 ha with ha | ha
  · exact h.1 a ha
  · exact ⟨h0.trans (h'.1 a ha).1, (h'.1 a ha).2⟩

theorem Fit.again {s : Str} {C D : List (Attempt Char)} {x : Res Char α} {y : Res Char β} (h : Fit s C x) (h' : Fit s D y) :
    Fit s (C ++ D) y :=
  Fit.append (v := ()) (h.here) h'

theorem Fit.cons {s : Str} {L : List (Attempt Char)} {a : α} {x : Res Char (List α)} (h : Fit s L x) : Fit s L (consRes a x) := by
  refine ⟨h.1, fun r v e => ?_⟩
  cases x <;> simp [consRes] at e
  obtain ⟨rfl, rfl⟩ := e
  exact h.2 _ _ rfl

theorem fit {g : G α} {s : Str} {L : List (Attempt Char)} {x : Res Char α} (hb : ∀ {γ : Type} (N : NT γ), Neat 0 (G.body N))
    (h : Traced charLeaf g s L x) : ∀ n, Neat n g → Known n s → Fit s L x := by
  refine Traced.rec
    (motive_1 := fun {α} g s L x _ => ∀ n, Neat n g → Known n s → Fit s L x)
    (motive_2 := fun {α β} sep g s L x _ => Neat 0 sep → Neat 0 g → Fit s L x)
    ?_ ?_ ?_ ?_ ?_ ?_ ?_ ?_ ?_ ?_ ?_ ?_ ?_ ?_ ?_ ?_ ?_ ?_ ?_ ?_ ?_ ?_ ?_ ?_ ?_ ?_ ?_ ?_ ?_ ?_ h
  · intro α a s n _ _; exact ⟨by simp, by rintro _ _ ⟨⟩; exact .refl⟩
  · intro α l s n h hk
    exact ⟨by rintro _ (_ | ⟨_, ⟨⟩⟩); exact ⟨.refl, n, hk, h⟩, fun r v e => .step .refl ⟨α, l, v, ⟨n, hk, h⟩, e⟩⟩
  · rintro α β g f s r a x c d _ _ h1 h3 n hn hk; exact (h1 n hn.1 hk).append (h3 0 (hn.2 a) (known_zero _))
  · rintro α β g f s e c _ h1 n hn hk; exact (h1 n hn.1 hk).err
  · rintro α g h s r a c _ h1 n hn hk; exact h1 n hn.1 hk
  · rintro α g h s p k x c d h0 _ h1 h3 n ⟨hn, m, ht, hm⟩ hk; exact (h1 n hn hk).again (h3 m hm (ht _ _ _ _ hk h0))
  · rintro α g h s e c _ he h1 n hn hk; exact h1 n hn.1 hk
  · intro α s n _ _; exact ⟨by simp, by simp⟩
  · rintro α g s r a c _ h1 n hn hk; exact (h1 n hn hk).to
  · rintro α g s p k c _ h1 n hn hk; exact (h1 n hn hk).here
  · rintro α g s e c _ he h1 n hn hk; exact (h1 n hn hk).err
  · rintro α g s p k c _ h1 n hn hk; exact (h1 0 hn (known_zero _)).here
  · rintro α g s e c _ he h1 n hn hk; exact (h1 0 hn (known_zero _)).err
  · rintro α g s a c _ h1 n hn hk; exact (h1 0 hn (known_zero _)).err
  · rintro α g s r a x c d _ hne _ h1 h3 n hn hk; exact (h1 0 hn (known_zero _)).append (h3 0 hn (known_zero _)).cons
  · rintro α β sep g s p k c _ h1 n hn hk; exact (h1 0 hn.2 (known_zero _)).here
  · rintro α β sep g s e c _ he h1 n hn hk; exact (h1 0 hn.2 (known_zero _)).err
  · rintro α β sep g s a c _ h1 n hn hk; exact (h1 0 hn.2 (known_zero _)).err
  · rintro α β sep g s r a x c d _ hne _ h1 h3 n hn hk; exact (h1 0 hn.2 (known_zero _)).append (h3 hn.1 hn.2).cons
  · rintro α β sep g s e c _ h1 n hn hk; exact (h1 0 hn.2 (known_zero _)).err
  · rintro α β sep g s a c _ h1 n hn hk; exact (h1 0 hn.2 (known_zero _)).err
  · rintro α β sep g s r a x c d _ hne _ h1 h3 n hn hk; exact (h1 0 hn.2 (known_zero _)).append (h3 hn.1 hn.2).cons
  · rintro α N s x c _ h1 n hn hk; exact h1 0 (hb N) (known_zero _)
  · rintro α β sep g s p k c _ h1 hs hn; exact (h1 0 hs (known_zero _)).here
  · rintro α β sep g s e c _ he h1 hs hn; exact (h1 0 hs (known_zero _)).err
  · rintro α β sep g s b c _ h1 hs hn; exact (h1 0 hs (known_zero _)).err
  · rintro α β sep g s r p b k c d _ hne _ h1 h3 hs hn
    exact ((h1 0 hs (known_zero _)).append (h3 0 hn (known_zero _))).here
  · rintro α β sep g s r b e c d _ hne _ he h1 h3 hs hn
    exact (h1 0 hs (known_zero _)).append (h3 0 hn (known_zero _)).err
  · rintro α β sep g s r b a c d _ hne _ h1 h3 hs hn
    exact ((h1 0 hs (known_zero _)).append (h3 0 hn (known_zero _))).err
  · rintro α β sep g s r q b a x c d e _ hne _ hne2 _ h1 h3 h5 hs hn
    exact ((h1 0 hs (known_zero _)).append (h3 0 hn (known_zero _))).append (h5 hs hn).cons

/-- A place where a terminal is tried is the first place, or the end of a terminal that has been read. -/
def Linked {σ : Type} (leaf : ∀ α, Leaf α → P σ α) (s : List σ) (L : List (Attempt σ)) (x : Res σ α) : Prop :=
  (∀ a ∈ L, a.place = s ∨ ∃ b ∈ L, ∃ v, leaf _ b.leaf b.place = .ok a.place v) ∧
    ∀ r v, x = .ok r v → r = s ∨ ∃ b ∈ L, ∃ v, leaf _ b.leaf b.place = .ok r v

namespace Linked

variable {σ : Type} {leaf : ∀ α, Leaf α → P σ α}

theorem err {s : List σ} {L : List (Attempt σ)} {x : Res σ α} {e : Err σ} (h : Linked leaf s L x) : Linked leaf s L (.err e : Res σ β) :=
  ⟨h.1, by simp⟩

theorem here {s : List σ} {L : List (Attempt σ)} {x : Res σ α} {v : β} (h : Linked leaf s L x) : Linked leaf s L (.ok s v : Res σ β) :=
  ⟨h.1, by rintro _ _ ⟨⟩; exact .inl rfl⟩

theorem to {s r : List σ} {L : List (Attempt σ)} {v : α} {v' : β} (h : Linked leaf s L (.ok r v)) : Linked leaf s L (.ok r v' : Res σ β) :=
  ⟨h.1, by rintro _ _ ⟨⟩; exact h.2 _ _ rfl⟩

theorem append {s r : List σ} {C D : List (Attempt σ)} {v : α} {x : Res σ β} (h : Linked leaf s C (.ok r v)) (h' : Linked leaf r D x) :
    Linked leaf s (C ++ D) x := by
  have h0 : r = s ∨ ∃ b ∈ C ++ D, ∃ v, leaf _ b.leaf b.place = .ok r v := by
    rcases h.2 r v rfl with h0 | ⟨b, hb, h0⟩
    · exact .inl h0
    · exact .inr ⟨b, List.mem_append_left _ hb, h0⟩
  refine ⟨fun a ha => ?_, fun q w e => ?_⟩
  · rcases List.mem_append.1 ha with ha | ha
    · rcases h.1 a ha with h1 | ⟨b, hb, h1⟩
      · exact .inl h1
      · exact .inr ⟨b, List.mem_append_left _ hb, h1⟩
    · rcases h'.1 a ha with h1 | ⟨b, hb, h1⟩
      · rw [h1]; exact h0
      · exact .inr ⟨b, List.mem_append_right _ hb, h1⟩
  · rcases h'.2 q w e with h1 | ⟨b, hb, h1⟩
    · rw [h1]; exact h0
    · exact .inr ⟨b, List.mem_append_right _ hb, h1⟩

theorem again {s : List σ} {C D : List (Attempt σ)} {x : Res σ α} {y : Res σ β} (h : Linked leaf s C x) (h' : Linked leaf s D y) :
    Linked leaf s (C ++ D) y :=
  append (v := ()) (h.here) h'

theorem cons {s : List σ} {L : List (Attempt σ)} {a : α} {x : Res σ (List α)} (h : Linked leaf s L x) : Linked leaf s L (consRes a x) := by
  refine ⟨h.1, fun r v e => ?_⟩
  cases x <;> simp [consRes] at e
  obtain ⟨rfl, rfl⟩ := e
  exact h.2 _ _ rfl

end Linked

theorem linked {σ : Type} {leaf : ∀ α, Leaf α → P σ α} {g : G α} {s : List σ} {L : List (Attempt σ)} {x : Res σ α}
    (h : Traced leaf g s L x) : Linked leaf s L x := by
  refine Traced.rec
    (motive_1 := fun {α} g s L x _ => Linked leaf s L x)
    (motive_2 := fun {α β} sep g s L x _ => Linked leaf s L x)
    ?_ ?_ ?_ ?_ ?_ ?_ ?_ ?_ ?_ ?_ ?_ ?_ ?_ ?_ ?_ ?_ ?_ ?_ ?_ ?_ ?_ ?_ ?_ ?_ ?_ ?_ ?_ ?_ ?_ ?_ h
  · intro α a s; exact ⟨by simp, by rintro _ _ ⟨⟩; exact .inl rfl⟩
  · intro α l s
    exact ⟨by rintro _ (_ | ⟨_, ⟨⟩⟩); exact .inl rfl, fun r v e => .inr ⟨⟨l, s⟩, by simp, v, e⟩⟩
  · rintro α β g f s r a x c d _ _ h1 h3; exact h1.append h3
  · rintro α β g f s e c _ h1; exact h1.err
  · rintro α g h s r a c _ h1; exact h1
  · rintro α g h s p k x c d h0 _ h1 h3; exact h1.again h3
  · rintro α g h s e c _ he h1; exact h1
  · intro α s; exact ⟨by simp, by simp⟩
  · rintro α g s r a c _ h1; exact h1.to
  · rintro α g s p k c _ h1; exact h1.here
  · rintro α g s e c _ he h1; exact h1.err
  · rintro α g s p k c _ h1; exact h1.here
  · rintro α g s e c _ he h1; exact h1.err
  · rintro α g s a c _ h1; exact h1.err
  · rintro α g s r a x c d _ hne _ h1 h3; exact h1.append h3.cons
  · rintro α β sep g s p k c _ h1; exact h1.here
  · rintro α β sep g s e c _ he h1; exact h1.err
  · rintro α β sep g s a c _ h1; exact h1.err
  · rintro α β sep g s r a x c d _ hne _ h1 h3; exact h1.append h3.cons
  · rintro α β sep g s e c _ h1; exact h1.err
  · rintro α β sep g s a c _ h1; exact h1.err
  · rintro α β sep g s r a x c d _ hne _ h1 h3; exact h1.append h3.cons
  · rintro α N s x c _ h1; exact h1
  · rintro α β sep g s p k c _ h1; exact h1.here
  · rintro α β sep g s e c _ he h1; exact h1.err
  · rintro α β sep g s b c _ h1; exact h1.err
  · rintro α β sep g s r p b k c d _ hne _ h1 h3; exact (h1.append h3).here
  · rintro α β sep g s r b e c d _ hne _ he h1 h3; exact h1.append h3.err
  · rintro α β sep g s r b a c d _ hne _ h1 h3; exact (h1.append h3).err
  · rintro α β sep g s r q b a x c d e _ hne _ hne2 _ h1 h3 h5; exact (h1.append h3).append h5.cons

/-- A terminal that is read is a solid lexeme or a number. -/
theorem solid_or_number {l : Leaf α} (hl : Plain l) {w : Str} {v : α} (h : LeafText l w v) :
    Solid w ∨ (Number w ∧ (∃ m, (⟨_, l⟩ : (α : Type) × Leaf α) ∈ m ∧ m = [⟨Str, .float⟩, ⟨Str, .dec⟩, ⟨Str, .hex⟩, ⟨Str, .oct⟩])) := by
  cases l with
  | punct p => obtain rfl := h; exact .inl (solid_punct hl.1 hl.2)
  | kw k => obtain rfl := h; exact .inl (solid_kw k)
  | ident => exact .inl (.inl ⟨v, h.2, by simpa using h.1⟩)
  | dec => obtain ⟨rfl, h⟩ := h; exact .inr ⟨.inl h, _, by simp, rfl⟩
  | hex => obtain ⟨rfl, h⟩ := h; exact .inr ⟨.inr (.inl h), _, by simp, rfl⟩
  | oct => obtain ⟨rfl, h⟩ := h; exact .inr ⟨.inr (.inr (.inl h)), _, by simp, rfl⟩
  | float => obtain ⟨rfl, h⟩ := h; exact .inr ⟨.inr (.inr (.inr h)), _, by simp, rfl⟩
  | string => exact .inl (.inr (.inr (.inl ⟨v, by simpa [string, LeafText, and_comm] using h⟩)))

/-- From a place there is only one way. -/
theorem Next.unique {s r r' : Str} (h : Next s r) (h' : Next s r') : r = r' := by
  obtain ⟨α, l, v, ⟨n, hk, hl⟩, h⟩ := h
  obtain ⟨β, l', v', ⟨n', hk', hl'⟩, h'⟩ := h'
  obtain ⟨w, e, h1, h2, h3, rfl⟩ := charLeaf_ok_iff.1 h
  obtain ⟨w', e', h1', h2', h3', rfl⟩ := charLeaf_ok_iff.1 h'
  rcases solid_or_number hl.plain h2 with hw | ⟨hw, _, hm, rfl⟩
  · rcases solid_or_number hl'.plain h2' with hw' | ⟨hw', -⟩
    · rcases exact_char.solid hw ⟨e, h1, leafText_wordy h2 h3, rfl⟩ l' hl'.plain with ⟨v2, -, h4⟩ | ⟨-, p, k, h4⟩
      · rw [h'] at h4; simpa using (Res.ok.inj h4).1.symm
      · rw [h'] at h4; cases h4
    · exact (number_solid hw hw' (h1.symm.trans h1')).elim
  · rcases solid_or_number hl'.plain h2' with hw' | ⟨hw', _, hm', rfl⟩
    · exact (number_solid hw' hw (h1'.symm.trans h1)).elim
    · clear hw hw' h1 h1' h2 h2' h3 h3'
      simp only [List.mem_cons, List.not_mem_nil, or_false] at hm hm'
      rcases hm with hm | hm | hm | hm <;> rcases hm' with hm' | hm' | hm' | hm' <;> cases hm <;> cases hm' <;>
        first
        | (rw [h] at h'; simpa using (Res.ok.inj h').1)
        | (simp only [Level] at hl hl'; obtain ⟨a, b, c⟩ := hk; obtain ⟨a', b', c'⟩ := hk'
           first
           | exact (a (by omega) _ _ h').elim
           | exact (b (by omega) _ _ h').elim
           | exact (c (by omega) _ _ h').elim
           | exact (a' (by omega) _ _ h).elim
           | exact (b' (by omega) _ _ h).elim
           | exact (c' (by omega) _ _ h).elim)

end Verif.Cut
