import Verif.Proof.Visits
import Verif.Proof.LinearDef

/-!
# How often a place of the text is visited

`V m g s n x`: the parser `g`, run on `s`, tries `n` terminals before the last `m` characters, and ends with `x`. The
development follows that of the costs (`Verif/Proof/Linear.lean` and the following files); what is said there about outcomes
is used here.
-/

namespace Verif.Visits
open Nom Spec
open Linear (At Refuse Sign Leafy ahead leaf_suffix leaf_lt ahead_le body_tame Usual)

variable {α β : Type} {m : Nat}

abbrev V (m : Nat) (g : G α) (s : Str) (n : Nat) (x : Res Char α) : Prop := Weighed charLeaf (visit m) g s n x

theorem visit_le (m : Nat) (s : Str) : visit m s ≤ 1 := by unfold visit; split <;> omega
theorem visit_zero {m : Nat} {s : Str} (h : m < s.length) : visit m s = 0 := by unfold visit; split <;> omega
theorem visit_zero' {m : Nat} {s : Str} (h : s.length < m) : visit m s = 0 := by unfold visit; split <;> omega

theorem _root_.Verif.Spec.Weighed.runs {g : G α} {s : Str} {n : Nat} {x : Res Char α} (h : V m g s n x) : ∃ k, Runs charLeaf g s k x ∧ n ≤ k :=
  Verif.Weighed.runs h (visit_le m)

theorem _root_.Verif.Spec.Weighed.det {g : G α} {s : Str} {n n' : Nat} {x x' : Res Char α} (h : V m g s n x) (h' : V m g s n' x') : n' = n ∧ x' = x :=
  Verif.Weighed.det h _ _ h'

/-- Only what is left is visited. -/
theorem _root_.Verif.Spec.Weighed.past {g : G α} {s : Str} {n : Nat} {x : Res Char α} (h : V m g s n x) :
    (∀ r v, x = .ok r v → r <:+ s) ∧ (s.length < m → n = 0) := by
  refine Weighed.rec
    (motive_1 := fun {α} g s n x _ => (∀ r v, x = .ok r v → r <:+ s) ∧ (s.length < m → n = 0))
    (motive_2 := fun {α β} sep g s n x _ => (∀ r v, x = .ok r v → r <:+ s) ∧ (s.length < m → n = 0))
    ?_ ?_ ?_ ?_ ?_ ?_ ?_ ?_ ?_ ?_ ?_ ?_ ?_ ?_ ?_ ?_ ?_ ?_ ?_ ?_ ?_ ?_ ?_ ?_ ?_ ?_ ?_ ?_ ?_ ?_ h
  case refine_1 => exact ⟨fun _ _ e => by cases e; exact List.suffix_refl _, fun _ => rfl⟩
  case refine_2 => intro α l s; exact ⟨fun _ _ e => leaf_suffix e, visit_zero'⟩
  case refine_3 =>
    rintro α β g f s r a x c d _ _ ⟨h1, h2⟩ ⟨h3, h4⟩
    have h5 := h1 _ _ rfl
    refine ⟨fun q u e => (h3 _ _ e).trans h5, fun h => ?_⟩
    have := h5.length_le
    have := h2 h
    have := h4 (by omega)
    omega
  case refine_15 =>
    rintro α g s r a x c d _ _ _ ⟨h1, h2⟩ ⟨h3, h4⟩
    have h5 := h1 _ _ rfl
    refine ⟨fun q u e => ?_, fun h => ?_⟩
    · obtain ⟨as, e, -⟩ := consRes_ok.1 e
      exact (h3 _ _ e).trans h5
    · have := h5.length_le
      have := h2 h
      have := h4 (by omega)
      omega
  case refine_19 =>
    rintro α β sep g s r a x c d _ _ _ ⟨h1, h2⟩ ⟨h3, h4⟩
    have h5 := h1 _ _ rfl
    refine ⟨fun q u e => ?_, fun h => ?_⟩
    · obtain ⟨as, e, -⟩ := consRes_ok.1 e
      exact (h3 _ _ e).trans h5
    · have := h5.length_le
      have := h2 h
      have := h4 (by omega)
      omega
  case refine_22 =>
    rintro α β sep g s r a x c d _ _ _ ⟨h1, h2⟩ ⟨h3, h4⟩
    have h5 := h1 _ _ rfl
    refine ⟨fun q u e => ?_, fun h => ?_⟩
    · obtain ⟨as, e, -⟩ := consRes_ok.1 e
      exact (h3 _ _ e).trans h5
    · have := h5.length_le
      have := h2 h
      have := h4 (by omega)
      omega
  case refine_23 => intro α N s x c _ h1; exact h1
  case refine_27 =>
    rintro α β sep g s r p b k c d _ _ _ ⟨h1, h2⟩ ⟨h3, h4⟩
    have h5 := (h1 _ _ rfl).length_le
    refine ⟨fun _ _ e => by cases e; exact List.suffix_refl _, fun h => ?_⟩
    have := h2 h
    have := h4 (by omega)
    omega
  case refine_28 =>
    rintro α β sep g s r b e c d _ _ _ _ ⟨h1, h2⟩ ⟨h3, h4⟩
    have h5 := (h1 _ _ rfl).length_le
    refine ⟨fun _ _ e => by simp at e, fun h => ?_⟩
    have := h2 h
    have := h4 (by omega)
    omega
  case refine_29 =>
    rintro α β sep g s r b a c d _ _ _ ⟨h1, h2⟩ ⟨h3, h4⟩
    have h5 := (h1 _ _ rfl).length_le
    refine ⟨fun _ _ e => by simp at e, fun h => ?_⟩
    have := h2 h
    have := h4 (by omega)
    omega
  case refine_30 =>
    rintro α β sep g s r q b a x c d e _ _ _ _ _ ⟨h1, h2⟩ ⟨h3, h4⟩ ⟨h5, h6⟩
    have h7 := h1 _ _ rfl
    have h8 := h3 _ _ rfl
    refine ⟨fun q u e => ?_, fun h => ?_⟩
    · obtain ⟨as, e, -⟩ := consRes_ok.1 e
      exact (h5 _ _ e).trans (h8.trans h7)
    · have := h7.length_le
      have := h8.length_le
      have := h2 h
      have := h4 (by omega)
      have := h6 (by omega)
      omega
  all_goals grind [List.suffix_refl]

theorem _root_.Verif.Spec.Weighed.suffix {g : G α} {s r : Str} {n : Nat} {v : α} (h : V m g s n (.ok r v)) : r <:+ s := h.past.1 _ _ rfl
theorem _root_.Verif.Spec.Weighed.late {g : G α} {s : Str} {n : Nat} {x : Res Char α} (h : V m g s n x) (hs : s.length < m) : n = 0 := h.past.2 hs

/-! ## Parsers that fail at once -/

/-- On texts that begin with the character, the parser fails and looks no further. -/
class Blunt (c : Char) (g : G α) : Prop where
  blunt : ∀ m s n x, At c s → V m g s n x → (m < s.length → n = 0) ∧ ∃ e, x = .err e

/-- On texts that begin with the character, the parser consumes nothing and looks no further. -/
class Skips (c : Char) (g : G α) : Prop where
  skips : ∀ m s n x, At c s → V m g s n x → (m < s.length → n = 0) ∧ ((∃ e, x = .err e) ∨ ∃ v, x = .ok s v)

variable {c : Char}

theorem blunt_leaf {l : Leaf α} [h : Refuse c l] : Blunt c (.leaf l) := ⟨fun m s n x hs hr => by
  obtain ⟨rfl, rfl⟩ := Weighed.inv hr
  refine ⟨visit_zero, ?_⟩
  cases e : charLeaf α l s with
  | ok r v => exact absurd e (h.not_ok hs)
  | err e' => exact ⟨e', rfl⟩
  | diverge =>
    have := charLeaf_fine α l s
    rw [e] at this
    exact this.elim⟩
instance {l : Leaf α} [h : Refuse c l] : Blunt c (.leaf l) := blunt_leaf
instance {p : Punct} [h : Refuse c (.punct p)] : Blunt c (G.punct p) := inferInstanceAs (Blunt c (.leaf (.punct p)))
instance {k : Kw} [h : Refuse c (.kw k)] : Blunt c (G.kw k) := inferInstanceAs (Blunt c (.leaf (.kw k)))
instance [h : Refuse c .ident] : Blunt c G.ident := inferInstanceAs (Blunt c (.leaf .ident))

theorem blunt_bind {g : G α} {f : α → G β} (hg : Blunt c g) : Blunt c (.bind g f) := ⟨fun m s n x hs hr => by
  have := Weighed.inv hr
  simp only [Weighed.Inv] at this
  rcases this with ⟨r, a, d, e, h1, h2, rfl⟩ | ⟨e, h1, rfl⟩
  · obtain ⟨-, e, h⟩ := hg.blunt _ _ _ _ hs h1
    cases h
  · exact ⟨(hg.blunt _ _ _ _ hs h1).1, e, rfl⟩⟩

theorem blunt_skips {g : G α} {f : α → G β} (hg : Skips c g) (hf : ∀ a, Blunt c (f a)) :
    Blunt c (.bind g f) := ⟨fun m s n x hs hr => by
  have := Weighed.inv hr
  simp only [Weighed.Inv] at this
  rcases this with ⟨r, a, d, e, h1, h2, rfl⟩ | ⟨e, h1, rfl⟩
  · obtain ⟨h3, ⟨e', h⟩ | ⟨v, h⟩⟩ := hg.skips _ _ _ _ hs h1
    · cases h
    · cases h
      obtain ⟨h4, h5⟩ := (hf a).blunt _ _ _ _ hs h2
      exact ⟨fun h => by rw [h3 h, h4 h], h5⟩
  · exact ⟨(hg.skips _ _ _ _ hs h1).1, e, rfl⟩⟩

theorem skips_bind {g : G α} {f : α → G β} (hg : Skips c g) (hf : ∀ a, Skips c (f a)) :
    Skips c (.bind g f) := ⟨fun m s n x hs hr => by
  have := Weighed.inv hr
  simp only [Weighed.Inv] at this
  rcases this with ⟨r, a, d, e, h1, h2, rfl⟩ | ⟨e, h1, rfl⟩
  · obtain ⟨h3, ⟨e', h⟩ | ⟨v, h⟩⟩ := hg.skips _ _ _ _ hs h1
    · cases h
    · cases h
      obtain ⟨h4, h5⟩ := (hf a).skips _ _ _ _ hs h2
      exact ⟨fun h => by rw [h3 h, h4 h], h5⟩
  · exact ⟨(hg.skips _ _ _ _ hs h1).1, .inl ⟨e, rfl⟩⟩⟩

instance {a : α} : Skips c (pure a : G α) := ⟨fun m s n x hs hr => by
  obtain ⟨rfl, rfl⟩ := Weighed.inv hr
  exact ⟨fun _ => rfl, .inr ⟨a, rfl⟩⟩⟩

instance {g : G α} {f : α → G β} [hg : Blunt c g] : Blunt c (g >>= f) := blunt_bind hg
instance {g : G α} {f : α → G β} [hg : Skips c g] [hf : ∀ a, Blunt c (f a)] : Blunt c (g >>= f) := blunt_skips hg hf
instance {g : G α} {f : α → G β} [hg : Skips c g] [hf : ∀ a, Skips c (f a)] : Skips c (g >>= f) := skips_bind hg hf

instance {g : G α} [hg : Blunt c g] : Skips c (.opt g) := ⟨fun m s n x hs hr => by
  have := Weighed.inv hr
  simp only [Weighed.Inv] at this
  rcases this with ⟨r, a, h1, rfl⟩ | ⟨p, j, h1, rfl⟩ | ⟨e, -, h1, rfl⟩
  · obtain ⟨-, e, h⟩ := hg.blunt _ _ _ _ hs h1
    cases h
  · exact ⟨(hg.blunt _ _ _ _ hs h1).1, .inr ⟨_, rfl⟩⟩
  · exact ⟨(hg.blunt _ _ _ _ hs h1).1, .inl ⟨_, rfl⟩⟩⟩

theorem blunt_orElse {g h : G α} (hg : Blunt c g) (hh : Blunt c h) : Blunt c (.orElse g h) := ⟨fun m s n x hs hr => by
  have := Weighed.inv hr
  simp only [Weighed.Inv] at this
  rcases this with ⟨r, a, h1, rfl⟩ | ⟨p, j, d, e, h1, h2, rfl⟩ | ⟨e, -, h1, rfl⟩
  · obtain ⟨-, e, h⟩ := hg.blunt _ _ _ _ hs h1
    cases h
  · have h5 := (hg.blunt _ _ _ _ hs h1).1
    obtain ⟨h3, h4⟩ := hh.blunt _ _ _ _ hs h2
    exact ⟨fun h => by rw [h5 h, h3 h], h4⟩
  · exact ⟨(hg.blunt _ _ _ _ hs h1).1, _, rfl⟩⟩

instance : Blunt c (G.alts ([] : List (G α))) := ⟨fun m s n x hs hr => by
  obtain ⟨rfl, rfl⟩ := Weighed.inv hr
  exact ⟨fun _ => rfl, _, rfl⟩⟩
instance {g : G α} {gs : List (G α)} [hg : Blunt c g] [hh : Blunt c (G.alts gs)] : Blunt c (G.alts (g :: gs)) := blunt_orElse hg hh
instance {f : α → β} {g : G α} [hg : Blunt c g] : Blunt c (G.variant f g) := blunt_bind hg
instance {x : Kw} {a : α} [h : Refuse c (.kw x)] : Blunt c (G.kwAs x a) := blunt_bind (inferInstanceAs (Blunt c (G.kw x)))
instance {x : Kw} [h : Refuse c (.kw x)] : Skips c (G.optKw x) := by unfold G.optKw; infer_instance
instance {p : Punct} [h : Refuse c (.punct p)] : Skips c (G.optPunct p) := by unfold G.optPunct; infer_instance
instance {g : G α} {f : α → Bool → β} [hg : Blunt c g] : Blunt c (G.mayBeNull f g) := blunt_bind hg
instance {g : G α} [h : Refuse c (.punct .openParen)] : Blunt c (G.parenthesized g) :=
  blunt_bind (inferInstanceAs (Blunt c (G.punct .openParen)))
instance {g : G α} [h : Refuse c (.punct .openBracket)] : Blunt c (G.bracketed g) :=
  blunt_bind (inferInstanceAs (Blunt c (G.punct .openBracket)))
instance {g : G α} [h : Refuse c (.punct .openBrace)] : Blunt c (G.braced g) :=
  blunt_bind (inferInstanceAs (Blunt c (G.punct .openBrace)))
instance {g : G α} [h : Refuse c (.punct .lessThan)] : Blunt c (G.generics g) :=
  blunt_bind (inferInstanceAs (Blunt c (G.punct .lessThan)))

/-! ## Visits -/

/-- A place is visited at most `k` times, and not at all if it is beyond what `A` says, or beyond what is consumed, except if
what follows begins with a character of `X`. -/
structure Bd (A : Str → Nat) (m k : Nat) (X : List Char) (s : Str) (n : Nat) (x : Res Char α) : Prop where
  total : n ≤ k
  reach : m + A s < s.length → n = 0
  ok : ∀ r v, x = .ok r v → r.length + A s = s.length + A r ∧ ((m < r.length → n = 0) ∨ ∃ ch ∈ X, At ch r)

/-- What a recursive call leaves may begin with. -/
def calls : NT α → List Char
  | .argument => ['=']
  | _ => ['<']

/-- The same for recursive calls inside of fewer than `d` brackets. -/
def Calls (A : Str → Nat) (d a : Nat) : Prop :=
  ∀ (α : Type) (N : NT α) (m : Nat) (s : Str) (n : Nat) (x : Res Char α), nest s < d → V m (.call N) s n x →
    Bd A m a (calls N) s n x ∧ Bd ahead m a (calls N) s n x

theorem Calls.ahead {A : Str → Nat} {d a : Nat} (h : Calls A d a) : Calls ahead d a :=
  fun α N m s n x hd hr => ⟨(h α N m s n x hd hr).2, (h α N m s n x hd hr).2⟩

/-- The visits inside of `l` brackets. -/
class Lin (A : Str → Nat) (l : Nat) (g : G α) (X : outParam (List Char)) (k : outParam Nat) : Prop where
  lin : ∀ d a, 1 ≤ a → Calls A d a → ∀ m s, nest s + l ≤ d → ∀ n x, V m g s n x → Bd A m (k * a) X s n x

theorem Bd.mono {A : Str → Nat} {k k' : Nat} {X : List Char} {s : Str} {n : Nat} {x : Res Char α} (h : Bd A m k X s n x)
    (hk : k ≤ k') : Bd A m k' X s n x := ⟨Nat.le_trans h.total hk, h.reach, h.ok⟩

variable {A : Str → Nat} {l : Nat}

theorem Lin.weaken {g : G α} {k : Nat} {X Y : List Char} (h : Lin A l g X k) (hX : ∀ c ∈ X, c ∈ Y) : Lin A l g Y k :=
  ⟨fun d a ha hc m s hs n x hr => by
    obtain ⟨h1, h2, h3⟩ := h.lin d a ha hc m s hs n x hr
    refine ⟨h1, h2, fun r v e => ?_⟩
    obtain ⟨h4, h5⟩ := h3 r v e
    exact ⟨h4, h5.imp_right fun ⟨ch, h6, h7⟩ => ⟨ch, hX ch h6, h7⟩⟩⟩

theorem Lin.mono {g : G α} {k k' : Nat} {X : List Char} (h : Lin A l g X k) (hk : k ≤ k') : Lin A l g X k' :=
  ⟨fun d a ha hc m s hs n x hr => (h.lin d a ha hc m s hs n x hr).mono (Nat.mul_le_mul_right _ hk)⟩

instance {a : α} : Lin A l (pure a : G α) [] 0 := ⟨fun d b hb hc m s hs n x hr => by
  obtain ⟨rfl, rfl⟩ := Weighed.inv hr
  refine ⟨Nat.zero_le _, fun _ => rfl, fun r v e => ?_⟩
  cases e
  exact ⟨rfl, .inl fun _ => rfl⟩⟩

theorem lin_leaf {x : Leaf α} [h : Leafy A x] : Lin A l (.leaf x) [] 1 := ⟨fun d a ha hc m s hs n y hr => by
  obtain ⟨rfl, rfl⟩ := Weighed.inv hr
  refine ⟨Nat.le_trans (visit_le _ _) (by omega), fun h => visit_zero (by omega), fun r v e => ?_⟩
  have := leaf_lt e
  exact ⟨h.leafy _ _ _ e, .inl fun h => visit_zero (by omega)⟩⟩

instance {x : Leaf α} [h : Leafy A x] : Lin A l (.leaf x) [] 1 := lin_leaf
instance {p : Punct} [h : Leafy A (.punct p)] : Lin A l (G.punct p) [] 1 := lin_leaf
instance {k : Kw} [h : Leafy A (.kw k)] : Lin A l (G.kw k) [] 1 := lin_leaf
instance [h : Leafy A .ident] : Lin A l G.ident [] 1 := lin_leaf

/-- The parser fails at each of the characters. -/
class Blunts (X : List Char) (g : G α) : Prop where
  blunts : ∀ c ∈ X, Blunt c g

instance {g : G α} : Blunts [] g := ⟨fun _ h => nomatch h⟩
instance {X : List Char} {g : G α} [h : Blunt c g] [h' : Blunts X g] : Blunts (c :: X) g :=
  ⟨fun d hd => by
    rcases List.mem_cons.1 hd with rfl | hd
    · exact h
    · exact h'.blunts d hd⟩

theorem effect {g : G α} {l' w : Nat} {st : Bool} {s r : Str} {n : Nat} {v : α} (ht : Tame l g l' w 6) (hs : Guarded true g st)
    (h : V m g s n (.ok r v)) : nest r + l' ≤ nest s + l := by
  obtain ⟨k, h, -⟩ := h.runs
  exact ht.effect' body_tame hs h

theorem lin_bind {g : G α} {f : α → G β} {j w : Nat} {st : Bool} {X Y : List Char} {k k' : Nat} (hs : Guarded true g st)
    (ht : Tame l g j w 6) (hg : Lin A l g X k) (hf : ∀ a, Lin A j (f a) Y k') (hb : ∀ a, Blunts X (f a)) :
    Lin A l (.bind g f) Y (k + k') := ⟨fun d a ha hc m s hd n x hr => by
  have := Weighed.inv hr
  simp only [Weighed.Inv] at this
  rcases this with ⟨r, v, i, j, h1, h2, rfl⟩ | ⟨e, h1, rfl⟩
  · have h3 := effect ht hs h1
    obtain ⟨h4, h5, h6⟩ := hg.lin d a ha hc m s hd _ _ h1
    obtain ⟨h7, h8⟩ := h6 _ _ rfl
    obtain ⟨h9, h10, h11⟩ := (hf v).lin d a ha hc m r (by omega) _ _ h2
    refine ⟨by rw [Nat.add_mul]; omega, fun h => ?_, fun q u e => ?_⟩
    · have := h5 h
      have := h10 (by omega)
      omega
    · subst e
      obtain ⟨h13, h14⟩ := h11 _ _ rfl
      have h15 := h2.suffix.length_le
      refine ⟨by omega, ?_⟩
      rcases h8 with h8 | ⟨ch, h16, h17⟩
      · refine h14.imp_left fun h14 h => ?_
        have := h8 (by omega)
        have := h14 h
        omega
      · obtain ⟨-, _, h19⟩ := ((hb v).blunts ch h16).blunt _ _ _ _ h17 h2
        cases h19
  · obtain ⟨h4, h5, h6⟩ := hg.lin d a ha hc m s hd _ _ h1
    exact ⟨Nat.le_trans h4 (Nat.mul_le_mul_right _ (by omega)), h5, fun _ _ e => by cases e⟩⟩

theorem lin_pure {g : G α} {f : α → β} {X : List Char} {k : Nat} (hg : Lin A l g X k) :
    Lin A l (.bind g fun a => .ret (f a)) X k := ⟨fun d a ha hc m s hd n x hr => by
  have := Weighed.inv hr
  simp only [Weighed.Inv] at this
  rcases this with ⟨r, v, i, j, h1, h2, rfl⟩ | ⟨e, h1, rfl⟩
  · obtain ⟨rfl, rfl⟩ := Weighed.inv h2
    obtain ⟨h4, h5, h6⟩ := hg.lin d a ha hc m s hd _ _ h1
    refine ⟨h4, h5, fun q u e => ?_⟩
    cases e
    exact h6 _ _ rfl
  · obtain ⟨h4, h5, h6⟩ := hg.lin d a ha hc m s hd _ _ h1
    exact ⟨h4, h5, fun _ _ e => by cases e⟩⟩

instance (priority := high) {g : G α} {f : α → β} {X : List Char} {k : Nat} [hg : Lin A l g X k] :
    Lin A l (g >>= fun a => pure (f a)) X k := lin_pure hg
instance {g : G α} {f : α → G β} {j w : Nat} {st : Bool} {X Y : List Char} {k k' : Nat} [hs : Guarded true g st]
    [ht : Tame l g j w 6] [hg : Lin A l g X k] [hf : ∀ a, Lin A j (f a) Y k'] [hb : ∀ a, Blunts X (f a)] :
    Lin A l (g >>= f) Y (k + k') := lin_bind hs ht hg hf hb
instance {f : α → β} {g : G α} {X : List Char} {k : Nat} [hg : Lin A l g X k] : Lin A l (G.variant f g) X k := lin_pure hg
instance {x : Kw} {a : α} [Leafy A (.kw x)] : Lin A l (G.kwAs x a) [] 1 := lin_pure lin_leaf

/-! ## Parsers that try few terminals -/

/-- What the measure does along a parser. -/
class Meas (A : Str → Nat) (g : G α) : Prop where
  meas : ∀ m s n x, V m g s n x → (m + A s < s.length → n = 0) ∧ ∀ r v, x = .ok r v → r.length + A s = s.length + A r

instance {a : α} : Meas A (pure a : G α) := ⟨fun m s n x hr => by
  obtain ⟨rfl, rfl⟩ := Weighed.inv hr
  exact ⟨fun _ => rfl, fun _ _ e => by cases e; rfl⟩⟩
theorem meas_leaf {x : Leaf α} [h : Leafy A x] : Meas A (.leaf x) := ⟨fun m s n x hr => by
  obtain ⟨rfl, rfl⟩ := Weighed.inv hr
  exact ⟨fun h => visit_zero (by omega), fun _ _ e => h.leafy _ _ _ e⟩⟩
instance {x : Leaf α} [h : Leafy A x] : Meas A (.leaf x) := meas_leaf
instance {p : Punct} [h : Leafy A (.punct p)] : Meas A (G.punct p) := meas_leaf
instance {k : Kw} [h : Leafy A (.kw k)] : Meas A (G.kw k) := meas_leaf
instance [h : Leafy A .ident] : Meas A G.ident := meas_leaf
theorem meas_bind {g : G α} {f : α → G β} (hg : Meas A g) (hf : ∀ a, Meas A (f a)) : Meas A (.bind g f) := ⟨fun m s n x hr => by
  have := Weighed.inv hr
  simp only [Weighed.Inv] at this
  rcases this with ⟨r, v, i, j, h1, h2, rfl⟩ | ⟨e, h1, rfl⟩
  · obtain ⟨h3, h4⟩ := hg.meas _ _ _ _ h1
    obtain ⟨h5, h6⟩ := (hf v).meas _ _ _ _ h2
    have h7 := h4 _ _ rfl
    refine ⟨fun h => ?_, fun r v e => ?_⟩
    · have := h3 h
      have := h5 (by omega)
      omega
    · have := h6 _ _ e
      omega
  · exact ⟨(hg.meas _ _ _ _ h1).1, fun _ _ e => by cases e⟩⟩
theorem meas_opt {g : G α} (hg : Meas A g) : Meas A (.opt g) := ⟨fun m s n x hr => by
  have := Weighed.inv hr
  simp only [Weighed.Inv] at this
  rcases this with ⟨r, a, h1, rfl⟩ | ⟨p, j, h1, rfl⟩ | ⟨e, -, h1, rfl⟩
  · obtain ⟨h3, h4⟩ := hg.meas _ _ _ _ h1
    exact ⟨h3, fun _ _ e => by cases e; exact h4 _ _ rfl⟩
  · exact ⟨(hg.meas _ _ _ _ h1).1, fun _ _ e => by cases e; rfl⟩
  · exact ⟨(hg.meas _ _ _ _ h1).1, fun _ _ e => by cases e⟩⟩
theorem meas_orElse {g h : G α} (hg : Meas A g) (hh : Meas A h) : Meas A (.orElse g h) := ⟨fun m s n x hr => by
  have := Weighed.inv hr
  simp only [Weighed.Inv] at this
  rcases this with ⟨r, a, h1, rfl⟩ | ⟨p, j, d, e, h1, h2, rfl⟩ | ⟨e, -, h1, rfl⟩
  · exact hg.meas _ _ _ _ h1
  · obtain ⟨h3, h4⟩ := hg.meas _ _ _ _ h1
    obtain ⟨h5, h6⟩ := hh.meas _ _ _ _ h2
    exact ⟨fun h => by rw [h3 h, h5 h], h6⟩
  · exact hg.meas _ _ _ _ h1⟩
instance {g : G α} {f : α → G β} [hg : Meas A g] [hf : ∀ a, Meas A (f a)] : Meas A (g >>= f) := meas_bind hg hf
instance {g : G α} [hg : Meas A g] : Meas A (.opt g) := meas_opt hg
instance : Meas A (G.alts ([] : List (G α))) := ⟨fun m s n x hr => by
  obtain ⟨rfl, rfl⟩ := Weighed.inv hr
  exact ⟨fun _ => rfl, fun _ _ e => by cases e⟩⟩
instance {g : G α} {gs : List (G α)} [hg : Meas A g] [hh : Meas A (G.alts gs)] : Meas A (G.alts (g :: gs)) := meas_orElse hg hh
instance {f : α → β} {g : G α} [hg : Meas A g] : Meas A (G.variant f g) := by unfold G.variant; infer_instance
instance {x : Kw} {a : α} [h : Leafy A (.kw x)] : Meas A (G.kwAs x a) := by unfold G.kwAs; infer_instance
instance {x : Kw} [h : Leafy A (.kw x)] : Meas A (G.optKw x) := by unfold G.optKw; infer_instance
instance {p : Punct} [h : Leafy A (.punct p)] : Meas A (G.optPunct p) := by unfold G.optPunct; infer_instance
instance {f : α → Bool → β} {g : G α} [hg : Meas A g] [h : Leafy A (.punct .qMark)] : Meas A (G.mayBeNull f g) := by unfold G.mayBeNull; infer_instance
instance {b : Bool} {g : G α} [hg : Meas A g] : Meas A (G.cond b g) := by
  cases b
  · exact inferInstanceAs (Meas A (pure _))
  · exact inferInstanceAs (Meas A (G.variant some g))

/-- The parser does not fail. -/
class Sure (g : G α) : Prop where
  sure : ∀ m s n e, ¬ V m g s n (.err e)

/-- When the parser fails, it has looked no further. -/
class Here (g : G α) : Prop where
  here : ∀ m s n e, V m g s n (.err e) → m < s.length → n = 0

/-- When the parser accepts, it has looked no further. -/
class Exact (g : G α) : Prop where
  exact : ∀ m s n r v, V m g s n (.ok r v) → m < r.length → n = 0

instance {a : α} : Sure (pure a : G α) := ⟨fun m s n e hr => by
  obtain ⟨-, h⟩ := Weighed.inv hr
  cases h⟩
theorem leaf_error {x : Leaf α} {s : Str} {e : Err Char} (h : charLeaf α x s = .err e) : ∃ p k, e = .error p k := by
  have := charLeaf_fine α x s
  rw [h] at this
  cases e with
  | error p k => exact ⟨p, k, rfl⟩
  | _ => exact this.elim
theorem sure_leaf {x : Leaf α} : Sure (.opt (.leaf x)) := ⟨fun m s n e hr => by
  have := Weighed.inv hr
  simp only [Weighed.Inv] at this
  rcases this with ⟨r, a, h1, h2⟩ | ⟨p, j, h1, h2⟩ | ⟨e, h, h1, h2⟩
  · cases h2
  · cases h2
  · obtain ⟨-, h1⟩ := Weighed.inv h1
    obtain ⟨p, k, rfl⟩ := leaf_error h1.symm
    exact h _ _ rfl⟩
theorem sure_bind {g : G α} {f : α → G β} (hg : Sure g) (hf : ∀ a, Sure (f a)) : Sure (.bind g f) := ⟨fun m s n e hr => by
  have := Weighed.inv hr
  simp only [Weighed.Inv] at this
  rcases this with ⟨r, v, i, j, h1, h2, rfl⟩ | ⟨e, h1, -⟩
  · exact (hf v).sure _ _ _ _ h2
  · exact hg.sure _ _ _ _ h1⟩
instance {x : Kw} : Sure (G.optKw x) := sure_bind sure_leaf fun _ => inferInstanceAs (Sure (pure _))
instance {p : Punct} : Sure (G.optPunct p) := sure_bind sure_leaf fun _ => inferInstanceAs (Sure (pure _))
instance {g : G α} {f : α → G β} [hg : Sure g] [hf : ∀ a, Sure (f a)] : Sure (g >>= f) := sure_bind hg hf

theorem here_leaf {x : Leaf α} : Here (.leaf x) := ⟨fun m s n e hr => by
  obtain ⟨rfl, -⟩ := Weighed.inv hr
  exact visit_zero⟩
theorem here_bind {g : G α} {f : α → G β} (hg : Here g) (hf : ∀ a, Sure (f a)) : Here (.bind g f) := ⟨fun m s n e hr => by
  have := Weighed.inv hr
  simp only [Weighed.Inv] at this
  rcases this with ⟨r, v, i, j, h1, h2, rfl⟩ | ⟨e, h1, -⟩
  · exact ((hf v).sure _ _ _ _ h2).elim
  · exact hg.here _ _ _ _ h1⟩
theorem here_orElse {g h : G α} (hg : Here g) (hh : Here h) : Here (.orElse g h) := ⟨fun m s n e hr => by
  have := Weighed.inv hr
  simp only [Weighed.Inv] at this
  rcases this with ⟨r, v, h1, h2⟩ | ⟨p, k, i, j, h1, h2, rfl⟩ | ⟨e, -, h1, h2⟩
  · cases h2
  · intro h
    rw [hg.here _ _ _ _ h1 h, hh.here _ _ _ _ h2 h]
  · exact hg.here _ _ _ _ h1⟩
instance {x : Leaf α} : Here (.leaf x) := here_leaf
instance {p : Punct} : Here (G.punct p) := here_leaf
instance {k : Kw} : Here (G.kw k) := here_leaf
instance : Here G.ident := here_leaf
instance (priority := low) {g : G α} [h : Sure g] : Here g := ⟨fun m s n e hr => (h.sure _ _ _ _ hr).elim⟩
instance {g : G α} {f : α → G β} [hg : Here g] [hf : ∀ a, Sure (f a)] : Here (g >>= f) := here_bind hg hf
instance : Here (G.alts ([] : List (G α))) := ⟨fun m s n e hr _ => (Weighed.inv hr).1⟩
instance {g : G α} {gs : List (G α)} [hg : Here g] [hh : Here (G.alts gs)] : Here (G.alts (g :: gs)) := here_orElse hg hh
instance {f : α → β} {g : G α} [hg : Here g] : Here (G.variant f g) := by unfold G.variant; infer_instance
instance {x : Kw} {a : α} : Here (G.kwAs x a) := by unfold G.kwAs; infer_instance
instance {f : α → Bool → β} {g : G α} [hg : Here g] : Here (G.mayBeNull f g) := by unfold G.mayBeNull; infer_instance

instance {a : α} : Exact (pure a : G α) := ⟨fun m s n r v hr _ => (Weighed.inv hr).1⟩
theorem exact_leaf {x : Leaf α} : Exact (.leaf x) := ⟨fun m s n r v hr => by
  obtain ⟨rfl, e⟩ := Weighed.inv hr
  have := leaf_lt e.symm
  exact fun h => visit_zero (by omega)⟩
theorem exact_bind {g : G α} {f : α → G β} (hg : Exact g) (hf : ∀ a, Exact (f a)) : Exact (.bind g f) := ⟨fun m s n r v hr h => by
  have := Weighed.inv hr
  simp only [Weighed.Inv] at this
  rcases this with ⟨q, u, i, j, h1, h2, rfl⟩ | ⟨e, h1, h2⟩
  · have := h2.suffix.length_le
    rw [hg.exact _ _ _ _ _ h1 (by omega), (hf u).exact _ _ _ _ _ h2 h]
  · cases h2⟩
theorem exact_opt {g : G α} (hg : Exact g) (hh : Here g) : Exact (.opt g) := ⟨fun m s n r v hr => by
  have := Weighed.inv hr
  simp only [Weighed.Inv] at this
  rcases this with ⟨r, a, h1, h2⟩ | ⟨p, j, h1, h2⟩ | ⟨e, h, h1, h2⟩
  · cases h2
    exact hg.exact _ _ _ _ _ h1
  · cases h2
    exact hh.here _ _ _ _ h1
  · cases h2⟩
theorem exact_orElse {g h : G α} (hg : Exact g) (hh : Exact h)
    (hf : ∀ m s n e i r v, V m g s n (.err e) → V m h s i (.ok r v) → m < r.length → n = 0) : Exact (.orElse g h) :=
  ⟨fun m s n r v hr => by
  have := Weighed.inv hr
  simp only [Weighed.Inv] at this
  rcases this with ⟨r, v, h1, h2⟩ | ⟨p, k, i, j, h1, h2, rfl⟩ | ⟨e, -, h1, h2⟩
  · cases h2
    exact hg.exact _ _ _ _ _ h1
  · intro h
    rw [hf _ _ _ _ _ _ _ h1 h2 h, hh.exact _ _ _ _ _ h2 h]
  · cases h2⟩
instance {x : Leaf α} : Exact (.leaf x) := exact_leaf
instance {p : Punct} : Exact (G.punct p) := exact_leaf
instance {k : Kw} : Exact (G.kw k) := exact_leaf
instance : Exact G.ident := exact_leaf
instance {g : G α} {f : α → G β} [hg : Exact g] [hf : ∀ a, Exact (f a)] : Exact (g >>= f) := exact_bind hg hf
instance {g : G α} [hg : Exact g] [hh : Here g] : Exact (.opt g) := exact_opt hg hh
instance : Exact (G.alts ([] : List (G α))) := ⟨fun m s n e v hr _ => (Weighed.inv hr).1⟩
instance {g : G α} {gs : List (G α)} [hg : Exact g] [hh : Here g] [hs : Exact (G.alts gs)] : Exact (G.alts (g :: gs)) :=
  exact_orElse hg hs fun m s n e i r v h1 h2 h => hh.here _ _ _ _ h1 (by have := h2.suffix.length_le; omega)
instance {f : α → β} {g : G α} [hg : Exact g] : Exact (G.variant f g) := by unfold G.variant; infer_instance
instance {x : Kw} {a : α} : Exact (G.kwAs x a) := by unfold G.kwAs; infer_instance
instance {x : Kw} : Exact (G.optKw x) := by unfold G.optKw; infer_instance
instance {p : Punct} : Exact (G.optPunct p) := by unfold G.optPunct; infer_instance
instance {f : α → Bool → β} {g : G α} [hg : Exact g] : Exact (G.mayBeNull f g) := by unfold G.mayBeNull; infer_instance

theorem lin_brief {g : G α} {k : Nat} (hg : Linear.Brief g k) (hm : Meas A g) (he : Exact g) : Lin A l g [] k :=
  ⟨fun d a ha hc m s hd n x hr => by
    obtain ⟨i, h1, h2⟩ := hr.runs
    have h3 := hg.brief _ _ _ h1
    have h4 : k ≤ k * a := Nat.le_mul_of_pos_right _ ha
    obtain ⟨h5, h6⟩ := hm.meas _ _ _ _ hr
    refine ⟨by omega, h5, fun r v e => ?_⟩
    subst e
    exact ⟨h6 _ _ rfl, .inl (he.exact _ _ _ _ _ hr)⟩⟩

end Verif.Visits
