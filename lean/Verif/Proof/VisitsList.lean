import Verif.Proof.VisitsLin

/-! # Visits of repetitions and alternatives -/

namespace Verif.Visits
open Nom Spec
open Linear (At Refuse Sign Leafy ahead leaf_suffix leaf_lt ahead_le body_tame Usual consRes_eq leaf_at)

variable {α β : Type} {A : Str → Nat} {l m : Nat}

/-- As `Bd`, with a condition on what follows in place of its first character. -/
structure BdD (A : Str → Nat) (m k : Nat) (D : Str → Prop) (s : Str) (n : Nat) (x : Res Char α) : Prop where
  total : n ≤ k
  reach : m + A s < s.length → n = 0
  ok : ∀ r v, x = .ok r v → r.length + A s = s.length + A r ∧ ((m < r.length → n = 0) ∨ D r)

section
variable {sep : G β} {g : G α} {X : List Char} {k ks d a : Nat} {w w' : Nat} {st st' : Bool} {D : Str → Prop}
  (ha : 1 ≤ a) (hc : Calls A d a) (hs : Guarded true sep st) (hs' : Guarded true g st')
  (hts : Tame l sep l w 6) (htg : Tame l g l w' 6)
  (hsep : Linear.Brief sep ks) (hms : Meas A sep) (hes : Exact sep) (hhs : Here sep) (hg : Lin A l g X k)
  (hn : ∀ s i r v j e, V m sep s i (.ok r v) → V m g r j (.err e) → (m < s.length → i + j = 0) ∨ D s)
  (hX : ∀ r, ∀ ch ∈ X, At ch r → D r) (hXs : Blunts X sep)

include ha hc hs hs' hts htg hsep hms hes hhs hg hn hX hXs

theorem tail_lin (N : Nat) : ∀ s : Str, s.length ≤ N → nest s + l ≤ d → ∀ n x, WeighedTail charLeaf (visit m) sep g s n x →
    n ≤ 2 * ((ks + k) * a) ∧ (s.length ≤ m → n ≤ (ks + k) * a) ∧ (s.length < m → n = 0) ∧ (m + A s < s.length → n = 0) ∧
    ∀ r v, x = .ok r v → r.length ≤ s.length ∧ r.length + A s = s.length + A r ∧ ((m < r.length → n = 0) ∨ D r) := by
  obtain ⟨b, hb⟩ : ∃ b, b = (ks + k) * a := ⟨_, rfl⟩
  rw [← hb]
  have hb3 : b = ks * a + k * a := by rw [hb, Nat.add_mul]
  have hks : ks ≤ ks * a := Nat.le_mul_of_pos_right _ ha
  have hbr : ∀ s n x, V m sep s n x → n ≤ ks := fun s n x h => by
    obtain ⟨i, h1, h2⟩ := h.runs
    have := hsep.brief _ _ _ h1
    omega
  induction N with
  | zero =>
    intro s hN hd n x h
    have h0 : ∀ r v k, V m sep s k (.ok r v) → r ≠ s → False := fun r v k h1 h2 => by
      have := suffix_lt h1.suffix h2
      omega
    cases h with
    | noSep h =>
      have := hbr _ _ _ h
      refine ⟨by omega, fun _ => by omega, h.late, (hms.meas _ _ _ _ h).1, fun r v e => ?_⟩
      cases e
      exact ⟨Nat.le_refl _, rfl, .inl (hhs.here _ _ _ _ h)⟩
    | sepErr h =>
      have := hbr _ _ _ h
      exact ⟨by omega, fun _ => by omega, h.late, (hms.meas _ _ _ _ h).1, fun _ _ e => by cases e⟩
    | sepEmpty h =>
      have := hbr _ _ _ h
      exact ⟨by omega, fun _ => by omega, h.late, (hms.meas _ _ _ _ h).1, fun _ _ e => by cases e⟩
    | noElem h hne => exact (h0 _ _ _ h hne).elim
    | elemErr h hne => exact (h0 _ _ _ h hne).elim
    | back h hne => exact (h0 _ _ _ h hne).elim
    | more h hne => exact (h0 _ _ _ h hne).elim
  | succ N ih =>
    intro s hN hd n x h
    have h0 : ∀ r v i, V m sep s i (.ok r v) → r ≠ s → i ≤ ks ∧ r.length < s.length ∧
        r.length + A s = s.length + A r ∧ nest r + l ≤ d ∧ (m + A s < s.length → i = 0) ∧
        ∀ j y, V m g r j y → Bd A m (k * a) X r j y := fun r v i h3 h4 => by
      have h6 := suffix_lt h3.suffix h4
      have h7 := effect hts hs h3
      obtain ⟨h8, h9⟩ := hms.meas _ _ _ _ h3
      exact ⟨hbr _ _ _ h3, h6, h9 _ _ rfl, by omega, h8, hg.lin d a ha hc m r (by omega)⟩
    cases h with
    | noSep h =>
      have := hbr _ _ _ h
      refine ⟨by omega, fun _ => by omega, h.late, (hms.meas _ _ _ _ h).1, fun r v e => ?_⟩
      cases e
      exact ⟨Nat.le_refl _, rfl, .inl (hhs.here _ _ _ _ h)⟩
    | sepErr h =>
      have := hbr _ _ _ h
      exact ⟨by omega, fun _ => by omega, h.late, (hms.meas _ _ _ _ h).1, fun _ _ e => by cases e⟩
    | sepEmpty h =>
      have := hbr _ _ _ h
      exact ⟨by omega, fun _ => by omega, h.late, (hms.meas _ _ _ _ h).1, fun _ _ e => by cases e⟩
    | @noElem _ _ _ _ _ r' _ _ _ i j h hne h' =>
      obtain ⟨h3, h5, h7, h8, h10, h9⟩ := h0 _ _ _ h hne
      obtain ⟨h11, h12, h13⟩ := h9 _ _ h'
      refine ⟨by omega, fun _ => by omega, fun hm => ?_, fun hm => ?_, fun r v e => ?_⟩
      · rw [h.late hm, h'.late (by omega)]
      · rw [h10 hm, h12 (by omega)]
      · cases e
        exact ⟨Nat.le_refl _, rfl, hn _ _ _ _ _ _ h h'⟩
    | elemErr h hne h' =>
      obtain ⟨h3, h5, h7, h8, h10, h9⟩ := h0 _ _ _ h hne
      obtain ⟨h11, h12, h13⟩ := h9 _ _ h'
      refine ⟨by omega, fun _ => by omega, fun hm => ?_, fun hm => ?_, fun _ _ e => by cases e⟩
      · rw [h.late hm, h'.late (by omega)]
      · rw [h10 hm, h12 (by omega)]
    | back h hne h' =>
      obtain ⟨h3, h5, h7, h8, h10, h9⟩ := h0 _ _ _ h hne
      obtain ⟨h11, h12, h13⟩ := h9 _ _ h'
      refine ⟨by omega, fun _ => by omega, fun hm => ?_, fun hm => ?_, fun _ _ e => by cases e⟩
      · rw [h.late hm, h'.late (by omega)]
      · rw [h10 hm, h12 (by omega)]
    | @more _ _ _ _ _ r q _ v y i j e h hne h' hne2 h3' =>
      obtain ⟨h3, h5, h7, h8, h10, h9⟩ := h0 _ _ _ h hne
      obtain ⟨h11, h12, h13⟩ := h9 _ _ h'
      obtain ⟨h14, h15⟩ := h13 _ _ rfl
      have h16 := h'.suffix.length_le
      have h17 := effect htg hs' h'
      obtain ⟨h18, h19, h20, h21, h22⟩ := ih q (by omega) (by omega) _ _ h3'
      have h23 : s.length ≤ m → e = 0 := fun hm => h20 (by omega)
      have h24 : s.length < m → i + j + e = 0 := fun hm => by
        rw [h.late hm, h'.late (by omega), h20 (by omega)]
      have h25 : m + A s < s.length → i + j + e = 0 := fun hm => by
        rw [h10 hm, h12 (by omega), h21 (by omega)]
      rcases h15 with h15 | ⟨ch, h26, h27⟩
      · have h28 : m < q.length → i = 0 ∧ j = 0 := fun hm => ⟨hes.exact _ _ _ _ _ h (by omega), h15 hm⟩
        refine ⟨?_, fun hm => by have := h23 hm; omega, h24, h25, fun r' v' e' => ?_⟩
        · by_cases hm : m < q.length
          · have := h28 hm; omega
          · have := h19 (by omega); omega
        · obtain ⟨u, h29⟩ := consRes_eq e'
          obtain ⟨h30, h31, h32⟩ := h22 _ _ h29
          refine ⟨by omega, by omega, h32.imp_left fun h32 hm => ?_⟩
          have := h28 (by omega)
          have := h32 hm
          omega
      · have h28 := hXs.blunts _ h26
        have h29 : ∀ n r v, ¬ V m sep q n (.ok r v) := fun n r v h => by
          obtain ⟨-, e, h⟩ := h28.blunt _ _ _ _ h27 h
          cases h
        have h30 : e ≤ ks ∧ ∀ r v, y = .ok r v → r = q := by
          cases h3' with
          | noSep h => exact ⟨hbr _ _ _ h, fun _ _ e => by cases e; rfl⟩
          | sepErr h => exact ⟨hbr _ _ _ h, fun _ _ e => by cases e⟩
          | sepEmpty h => exact (h29 _ _ _ h).elim
          | noElem h => exact (h29 _ _ _ h).elim
          | elemErr h => exact (h29 _ _ _ h).elim
          | back h => exact (h29 _ _ _ h).elim
          | more h => exact (h29 _ _ _ h).elim
        refine ⟨by omega, fun hm => by have := h23 hm; omega, h24, h25, fun r' v' e' => ?_⟩
        obtain ⟨u, h31⟩ := consRes_eq e'
        obtain rfl := h30.2 _ _ h31
        exact ⟨by omega, by omega, .inr (hX _ _ h26 h27)⟩

theorem list_lin (hn0 : ∀ s j e, V m g s j (.err e) → (m < s.length → j = 0) ∨ D s) (s : Str) (hd : nest s + l ≤ d) (n : Nat)
    (x : Res Char (List α)) (h : V m (.separatedList sep g) s n x) : BdD A m ((2 * ks + 3 * k) * a) D s n x := by
  have tl := tail_lin ha hc hs hs' hts htg hsep hms hes hhs hg hn hX hXs
  have hb : (2 * ks + 3 * k) * a = k * a + 2 * ((ks + k) * a) := by
    rw [← Nat.mul_assoc, ← Nat.add_mul]; congr 1; omega
  rw [hb]
  have hks : ks * a ≤ (ks + k) * a := Nat.mul_le_mul_right _ (by omega)
  have hks' : ks ≤ ks * a := Nat.le_mul_of_pos_right _ ha
  have hbr : ∀ s n x, V m sep s n x → n ≤ ks := fun s n x h => by
    obtain ⟨i, h1, h2⟩ := h.runs
    have := hsep.brief _ _ _ h1
    omega
  have key := hg.lin d a ha hc m s hd
  have := Weighed.inv h
  simp only [Weighed.Inv] at this
  rcases this with ⟨r, v, i, j, y, h1, h2, h3, rfl, rfl⟩ | ⟨v, h1, rfl⟩ | ⟨p, m, h1, rfl⟩ | ⟨e, -, h1, rfl⟩
  · obtain ⟨h4, h5, h6⟩ := key _ _ h1
    obtain ⟨h7, h8⟩ := h6 _ _ rfl
    have h9 := effect htg hs' h1
    obtain ⟨h11, h12, h13, h14, h15⟩ := tl r.length r (Nat.le_refl _) (by omega) _ _ h3
    refine ⟨by omega, fun hm => ?_, fun r' v' e' => ?_⟩
    · rw [h5 hm, h14 (by omega)]
    · obtain ⟨u, h16⟩ := consRes_eq e'
      obtain ⟨h17, h18, h19⟩ := h15 _ _ h16
      refine ⟨by omega, ?_⟩
      rcases h8 with h8 | ⟨ch, h8, h8'⟩
      · refine h19.imp_left fun h19 hm => ?_
        rw [h8 (by omega), h19 hm]
      · have h21 : ∀ n r' v, ¬ V m sep r n (.ok r' v) := fun n r' v h => by
          obtain ⟨-, e, h⟩ := (hXs.blunts _ h8).blunt _ _ _ _ h8' h
          cases h
        have h22 : ∀ r' v, y = .ok r' v → r' = r := by
          clear h
          cases h3 with
          | noSep h => exact fun _ _ e => by cases e; rfl
          | sepErr h => exact fun _ _ e => by cases e
          | sepEmpty h => exact (h21 _ _ _ h).elim
          | noElem h => exact (h21 _ _ _ h).elim
          | elemErr h => exact (h21 _ _ _ h).elim
          | back h => exact (h21 _ _ _ h).elim
          | more h => exact (h21 _ _ _ h).elim
        rw [h22 _ _ h16]
        exact .inr (hX _ _ h8 h8')
  · exact ⟨by have := (key _ _ h1).total; omega, (key _ _ h1).reach, fun _ _ e => by cases e⟩
  · refine ⟨by have := (key _ _ h1).total; omega, (key _ _ h1).reach, fun r v e => ?_⟩
    cases e
    exact ⟨rfl, hn0 _ _ _ h1⟩
  · exact ⟨by have := (key _ _ h1).total; omega, (key _ _ h1).reach, fun _ _ e => by cases e⟩

theorem list1_lin (hn0 : ∀ s j e, V m g s j (.err e) → (m < s.length → j = 0) ∨ D s) (s : Str) (hd : nest s + l ≤ d) (n : Nat)
    (x : Res Char (List α)) (h : V m (.separatedNonemptyList sep g) s n x) : BdD A m ((2 * ks + 3 * k) * a) D s n x := by
  have key := list_lin ha hc hs hs' hts htg hsep hms hes hhs hg hn hX hXs hn0 s hd
  have := Weighed.inv h
  simp only [Weighed.Inv] at this
  rcases this with ⟨r, v, i, j, y, h1, h2, h3, rfl, rfl⟩ | ⟨v, h1, rfl⟩ | ⟨e, h1, rfl⟩
  · exact key _ _ (.sepMore h1 h2 h3)
  · obtain ⟨h2, h3, -⟩ := key _ _ (.sepEmpty h1)
    exact ⟨h2, h3, fun _ _ e => by cases e⟩
  · by_cases h2 : ∃ p k, e = .error p k
    · obtain ⟨p, k, rfl⟩ := h2
      obtain ⟨h2, h3, -⟩ := key _ _ (.sepStop h1)
      exact ⟨h2, h3, fun _ _ e => by cases e⟩
    · obtain ⟨h2, h3, -⟩ := key _ _ (.sepErr h1 fun p k h => h2 ⟨p, k, h⟩)
      exact ⟨h2, h3, fun _ _ e => by cases e⟩

end

/-! ## Enclosed lists -/

theorem punct_v {p : Punct} {s : Str} {n : Nat} {x : Res Char Unit} (h : V m (G.punct p) s n x) :
    n = visit m s ∧ x = charLeaf _ (.punct p) s := Weighed.inv h

theorem lin_enclosed {o cl : Punct} {z : Char} {g : G α} {j w w' k : Nat} {st : Bool} (hz : cl.text.head? = some z)
    (hs : Guarded true g st) (hto : Tame l (G.punct o) j w 6) (htg : Tame j g j w' 6) [ho : Leafy A (.punct o)]
    [hcl : Leafy A (.punct cl)]
    (hg : ∀ d a, 1 ≤ a → Calls A d a → ∀ m s, nest s + j ≤ d → ∀ n x, V m g s n x →
      BdD A m (k * a) (fun r => ¬ At z r) s n x) :
    Lin A l (.bind (G.punct o) fun _ => .bind g fun b => .bind (G.punct cl) fun _ => .ret b) [] (k + 2) :=
  ⟨fun d a ha hc m s hd n x hr => by
  have ha' : (k + 2) * a = k * a + 2 * a := Nat.add_mul _ _ _
  have hv := fun s => visit_le m s
  have := Weighed.inv hr
  simp only [Weighed.Inv] at this
  rcases this with ⟨r, v, i, j, h1, h2, rfl⟩ | ⟨e, h1, rfl⟩
  · obtain ⟨rfl, e⟩ := punct_v h1
    have h3 := effect hto (st := true) .leaf h1
    have h5 := leaf_lt e.symm
    have h6 := ho.leafy _ _ _ e.symm
    have h4 := hv s
    have := Weighed.inv h2
    simp only [Weighed.Inv] at this
    rcases this with ⟨q, u, i, j, h7, h8, rfl⟩ | ⟨e, h7, rfl⟩
    · obtain ⟨h9, h10, h11⟩ := hg d a ha hc m r (by omega) _ _ h7
      obtain ⟨h12, h13⟩ := h11 _ _ rfl
      have h14 := h7.suffix.length_le
      have h15 := hv q
      have := Weighed.inv h8
      simp only [Weighed.Inv] at this
      rcases this with ⟨q', u', i', j', h16, h17, rfl⟩ | ⟨e, h16, rfl⟩
      · obtain ⟨rfl, rfl⟩ := Weighed.inv h17
        obtain ⟨rfl, e'⟩ := punct_v h16
        have h19 := hcl.leafy _ _ _ e'.symm
        have h20 := leaf_lt e'.symm
        refine ⟨by omega, fun hm => ?_, fun r' v' e'' => ?_⟩
        · rw [visit_zero (s := s) (by omega), h10 (by omega), visit_zero (s := q) (by omega)]
        · cases e''
          refine ⟨by omega, .inl fun hm => ?_⟩
          rcases h13 with h13 | h13
          · rw [visit_zero (s := s) (by omega), h13 (by omega), visit_zero (s := q) (by omega)]
          · exact absurd (leaf_at hz e'.symm) h13
      · obtain ⟨rfl, -⟩ := punct_v h16
        refine ⟨by omega, fun hm => ?_, fun _ _ e => by cases e⟩
        rw [visit_zero (s := s) (by omega), h10 (by omega), visit_zero (s := q) (by omega)]
    · obtain ⟨h9, h10, h11⟩ := hg d a ha hc m r (by omega) _ _ h7
      refine ⟨by omega, fun hm => ?_, fun _ _ e => by cases e⟩
      rw [visit_zero (s := s) (by omega), h10 (by omega)]
  · obtain ⟨rfl, -⟩ := punct_v h1
    exact ⟨by have := hv s; omega, fun hm => visit_zero (by omega), fun _ _ e => by cases e⟩⟩

theorem lin_list {o cl : Punct} {z : Char} {g : G α} {sep : G β} {X : List Char} {j w w' w'' k ks : Nat} {st st' : Bool}
    (hz : cl.text.head? = some z) (hs' : Guarded true g st') (hs : Guarded true sep st)
    (hto : Tame l (G.punct o) j w 6) (htg : Tame j g j w' 5) (htg' : Tame j g j w' 6) (hts : Tame j sep j w'' 6)
    (hts' : Tame j sep j w'' 5)
    [ho : Leafy A (.punct o)] [hcl : Leafy A (.punct cl)] (hsep : Linear.Brief sep ks) (hms : Meas A sep)
    (hes : Exact sep) (hhs : Here sep) (hg : Lin A j g X k)
    (hb : Blunt z g) (hbs : Blunt z sep) (hX : z ∉ X) (hXs : Blunts X sep) :
    Lin A l (.bind (G.punct o) fun _ => .bind (G.punctuated g sep) fun b => .bind (G.punct cl) fun _ => .ret b) []
      (2 * ks + 3 * k + 2) :=
  lin_enclosed hz (.separatedList hs' hs) hto (.separatedList hs hs' hts' htg) fun d a ha hc m s hd n x hr =>
    list_lin ha hc hs hs' hts htg' hsep hms hes hhs hg (D := fun s => ¬ At z s)
      (fun s i r v j e h1 h2 => .inr fun h => by
        obtain ⟨-, e, h3⟩ := hbs.blunt _ _ _ _ h h1
        cases h3)
      (fun r ch h h' h2 => hX (by rw [h2.det h']; exact h)) hXs
      (fun s j e h => by
        by_cases h' : At z s
        · exact .inl (hb.blunt _ _ _ _ h' h).1
        · exact .inr h') s hd n x hr

/-! ## Options and alternatives -/

/-- The parser fails at once on texts that do not begin with the character. -/
class Opens (c : Char) (g : G α) : Prop where
  opens : ∀ m s n x, V m g s n x → At c s ∨ (m < s.length → n = 0) ∧ ∃ e, x = .err e

theorem opens_bind {p : Punct} {c : Char} {f : Unit → G α} (hp : p.text.head? = some c) : Opens c (.bind (G.punct p) f) :=
  ⟨fun m s n x hr => by
  have := Weighed.inv hr
  simp only [Weighed.Inv] at this
  rcases this with ⟨r, v, i, j, h1, h2, rfl⟩ | ⟨e, h1, rfl⟩
  · obtain ⟨rfl, e⟩ := punct_v h1
    exact .inl (leaf_at hp e.symm)
  · obtain ⟨rfl, -⟩ := punct_v h1
    exact .inr ⟨visit_zero, e, rfl⟩⟩

instance {g : G α} : Opens '(' (G.parenthesized g) := opens_bind rfl
instance {g : G α} : Opens '[' (G.bracketed g) := opens_bind rfl
instance {g : G α} : Opens '{' (G.braced g) := opens_bind rfl
instance {c : Char} {g : G α} {f : α → G β} [h : Opens c g] : Opens c (g >>= f) := ⟨fun m s n x hr => by
  have := Weighed.inv hr
  simp only [Weighed.Inv] at this
  rcases this with ⟨r, v, i, j, h1, h2, rfl⟩ | ⟨e, h1, rfl⟩
  · rcases h.opens _ _ _ _ h1 with h | ⟨-, e, h⟩
    · exact .inl h
    · cases h
  · exact (h.opens _ _ _ _ h1).imp_right fun h => ⟨h.1, e, rfl⟩⟩
instance {c : Char} {g : G α} {f : α → Bool → β} [h : Opens c g] : Opens c (G.mayBeNull f g) :=
  inferInstanceAs (Opens c (g >>= fun _ => _))

theorem lin_opt {c : Char} {g : G α} {k : Nat} (hg : Lin A l g [] k) (ho : Opens c g) : Lin A l (.opt g) [c] k :=
  ⟨fun d a ha hc m s hd n x hr => by
  have := Weighed.inv hr
  simp only [Weighed.Inv] at this
  rcases this with ⟨r, v, h1, rfl⟩ | ⟨p, j, h1, rfl⟩ | ⟨e, -, h1, rfl⟩
  · obtain ⟨h2, h3, h4⟩ := hg.lin d a ha hc m s hd _ _ h1
    obtain ⟨h5, h6⟩ := h4 _ _ rfl
    refine ⟨h2, h3, fun r v e => ?_⟩
    cases e
    exact ⟨h5, .inl (h6.resolve_right fun ⟨_, h, _⟩ => nomatch h)⟩
  · obtain ⟨h2, h3, -⟩ := hg.lin d a ha hc m s hd _ _ h1
    refine ⟨h2, h3, fun r v e => ?_⟩
    cases e
    refine ⟨rfl, ?_⟩
    rcases ho.opens _ _ _ _ h1 with h | h
    · exact .inr ⟨c, by simp, h⟩
    · exact .inl h.1
  · obtain ⟨h2, h3, -⟩ := hg.lin d a ha hc m s hd _ _ h1
    exact ⟨h2, h3, fun _ _ e => by cases e⟩⟩

/-- Two alternatives, where what the first one looks at in vain is not beyond what the second one accepts. -/
theorem lin_orElse {g h : G α} {X : List Char} {k k' : Nat} (hg : Lin A l g X k) (hh : Lin A l h X k')
    (hf : ∀ d a, 1 ≤ a → Calls A d a → ∀ m s, nest s + l ≤ d → ∀ n e i r v, V m g s n (.err e) → V m h s i (.ok r v) →
      (m < r.length → n = 0) ∨ ∃ ch ∈ X, At ch r) :
    Lin A l (.orElse g h) X (k + k') := ⟨fun d a ha hc m s hd n x hr => by
  have hk : (k + k') * a = k * a + k' * a := Nat.add_mul _ _ _
  have := Weighed.inv hr
  simp only [Weighed.Inv] at this
  rcases this with ⟨r, v, h1, rfl⟩ | ⟨p, q, i, j, h1, h2, rfl⟩ | ⟨e, -, h1, rfl⟩
  · exact (hg.lin d a ha hc m s hd _ _ h1).mono (by omega)
  · obtain ⟨h3, h4, -⟩ := hg.lin d a ha hc m s hd _ _ h1
    obtain ⟨h5, h6, h7⟩ := hh.lin d a ha hc m s hd _ _ h2
    refine ⟨by omega, fun hm => by rw [h4 hm, h6 hm], fun r v e => ?_⟩
    obtain ⟨h8, h9⟩ := h7 r v e
    refine ⟨h8, ?_⟩
    subst e
    rcases hf d a ha hc m s hd _ _ _ _ _ h1 h2 with h10 | h10
    · exact h9.imp_left fun h9 hm => by rw [h9 hm, h10 hm]
    · exact .inr h10
  · exact (hg.lin d a ha hc m s hd _ _ h1).mono (by omega)⟩

theorem lin_altEnd : Lin A l (.altEnd : G α) [] 0 := ⟨fun d a ha hc m s hd n x hr => by
  obtain ⟨rfl, rfl⟩ := Weighed.inv hr
  exact ⟨Nat.zero_le _, fun _ => rfl, fun _ _ e => by cases e⟩⟩

/-- A first alternative that fails at once. -/
theorem lin_brief_or {g h : G α} {X : List Char} {k k' : Nat} (hb : Linear.Brief g k) (hm : Meas A g) (he : Exact g) (hH : Here g)
    (hh : Lin A l h X k') : Lin A l (.orElse g h) X (k + k') :=
  lin_orElse ((lin_brief hb hm he).weaken fun _ h => nomatch h) hh fun d a ha hc m s hd n e i r v h1 h2 =>
    .inl fun h => hH.here _ _ _ _ h1 (by have := h2.suffix.length_le; omega)

/-- Two alternatives that are told apart by the first character. -/
theorem lin_open_or {c : Char} {g h : G α} {X : List Char} {k k' : Nat} (hg : Lin A l g X k) (hb : Blunt c g)
    (hh : Lin A l h X k') (ho : Opens c h) : Lin A l (.orElse g h) X (k + k') :=
  lin_orElse hg hh fun d a ha hc m s hd n e i r v h1 h2 => by
    rcases ho.opens _ _ _ _ h2 with h | ⟨-, e, h⟩
    · exact .inl fun hm => (hb.blunt _ _ _ _ h h1).1 (by have := h2.suffix.length_le; omega)
    · cases h

instance : Lin A (l + 1) (.call .argument) ['='] 1 := ⟨fun d a _ hc m s hd n x hr => by
  rw [Nat.one_mul]
  exact (hc _ .argument m s n x (by omega) hr).1⟩
instance : Lin A (l + 1) (.call .type) ['<'] 1 := ⟨fun d a _ hc m s hd n x hr => by
  rw [Nat.one_mul]
  exact (hc _ .type m s n x (by omega) hr).1⟩
instance : Lin A (l + 1) (.call .nonAny) ['<'] 1 := ⟨fun d a _ hc m s hd n x hr => by
  rw [Nat.one_mul]
  exact (hc _ .nonAny m s n x (by omega) hr).1⟩
instance : Lin A (l + 1) (.call .unionMember) ['<'] 1 := ⟨fun d a _ hc m s hd n x hr => by
  rw [Nat.one_mul]
  exact (hc _ .unionMember m s n x (by omega) hr).1⟩

end Verif.Visits
