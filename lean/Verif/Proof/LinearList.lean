import Verif.Proof.Linear

/-! # Costs of repetitions and alternatives -/

namespace Verif.Linear
open Nom Spec

variable {α β : Type} {A : Str → Nat} {l : Nat}

theorem Lin.weaken {g : G α} {k : Nat} {X Y : List Char} (h : Lin A l g X k) (hX : ∀ c ∈ X, c ∈ Y) : Lin A l g Y k :=
  ⟨fun d a ha hc s hs c x hr => by
    obtain ⟨h1, h2⟩ := h.lin d a ha hc s hs c x hr
    refine ⟨h1, fun r v e => ?_⟩
    obtain ⟨h3, h4, h5⟩ := h2 r v e
    exact ⟨h3, h4, h5.imp_right fun ⟨ch, h6, h7⟩ => ⟨ch, hX ch h6, h7⟩⟩⟩

theorem Lin.mono {g : G α} {k k' : Nat} {X : List Char} (h : Lin A l g X k) (hk : k ≤ k') : Lin A l g X k' :=
  ⟨fun d a ha hc s hs c x hr => (h.lin d a ha hc s hs c x hr).mono (Nat.mul_le_mul_right _ hk)⟩

/-- As `Bd`, with a condition on what follows in place of its first character. -/
structure BdD (A : Str → Nat) (k : Nat) (D : Str → Prop) (s : Str) (c : Nat) (x : Res Char α) : Prop where
  total : c ≤ k * (A s + 1)
  ok : ∀ r v, x = .ok r v → r.length + A s = s.length + A r ∧ r <:+ s ∧
    (c ≤ k * (s.length - r.length + 1) ∨ D r)

theorem consRes_eq {a : α} {x : Res Char (List α)} {r : Str} {v : List α} (h : consRes a x = .ok r v) : ∃ u, x = .ok r u := by
  obtain ⟨as, h, -⟩ := consRes_ok.1 h
  exact ⟨as, h⟩

section
variable {sep : G β} {g : G α} {X : List Char} {k ks kf d a : Nat} {w w' : Nat} {st st' : Bool} {B D : Str → Prop}
  (ha : 1 ≤ a) (hc : Calls A d a) (hs : Guarded true sep st) (hs' : Guarded true g st')
  (hts : Tame l sep l w 6) (htg : Tame l g l w' 6)
  (hsep : Brief sep ks) (hms : Meas A sep) (hg : Lin A l g X k)
  (hf : ∀ s c e, Runs charLeaf g s c (.err e) → c ≤ kf ∨ B s)
  (hD : ∀ s c r v, Runs charLeaf sep s c (.ok r v) → B r → D s)
  (hX : ∀ r, ∀ ch ∈ X, At ch r → D r) (hXs : Blunts X sep)

include ha hc hs hs' hts htg hsep hms hg hf hD hX hXs

theorem tail_lin (n : Nat) : ∀ s : Str, s.length ≤ n → nest s + l ≤ d → ∀ c x, RunsTail charLeaf sep g s c x →
    c ≤ 2 * (ks + k + kf) * a * A s + (ks + k + kf) * a ∧ ∀ r v, x = .ok r v → r.length + A s = s.length + A r ∧ r <:+ s ∧
      (c ≤ 2 * (ks + k + kf) * a * (s.length - r.length) + (ks + k + kf) * a ∨ D r) := by
  obtain ⟨b, hb⟩ : ∃ b, b = (ks + k + kf) * a := ⟨_, rfl⟩
  have hb2 : 2 * (ks + k + kf) * a = 2 * b := by rw [hb, Nat.mul_assoc]
  rw [hb2, ← hb]
  have hb3 : b = ks * a + k * a + kf * a := by rw [hb, Nat.add_mul, Nat.add_mul]
  have hks : ks ≤ ks * a := Nat.le_mul_of_pos_right _ ha
  have hkf : kf ≤ kf * a := Nat.le_mul_of_pos_right _ ha
  have hmul : ∀ m m', m ≤ m' → 2 * b * m ≤ 2 * b * m' := fun m m' h => Nat.mul_le_mul_left _ h
  induction n with
  | zero =>
    intro s hn hd c x h
    have h0 : ∀ r v k, Runs charLeaf sep s k (.ok r v) → r ≠ s → False := fun r v k h1 h2 => by
      have := suffix_lt (runs_fine hs h1).1 h2
      omega
    have h2 : ∀ k x, Runs charLeaf sep s k x → k ≤ b := fun k x hr => by
      have := hsep.brief _ _ _ hr
      omega
    cases h with
    | noSep h =>
      refine ⟨by have := h2 _ _ h; omega, fun r v e => ?_⟩
      cases e
      exact ⟨rfl, List.suffix_refl _, .inl (by have := h2 _ _ h; omega)⟩
    | sepErr h => exact ⟨by have := h2 _ _ h; omega, fun _ _ e => by cases e⟩
    | sepEmpty h => exact ⟨by have := h2 _ _ h; omega, fun _ _ e => by cases e⟩
    | noElem h hne => exact (h0 _ _ _ h hne).elim
    | elemErr h hne => exact (h0 _ _ _ h hne).elim
    | back h hne => exact (h0 _ _ _ h hne).elim
    | more h hne => exact (h0 _ _ _ h hne).elim
  | succ n ih =>
    intro s hn hd c x h
    have h2 : ∀ k x, Runs charLeaf sep s k x → k ≤ b := fun k x hr => by
      have := hsep.brief _ _ _ hr
      omega
    have h0 : ∀ r v i, Runs charLeaf sep s i (.ok r v) → r ≠ s → i ≤ ks ∧ r <:+ s ∧ r.length < s.length ∧
        A r + 1 ≤ A s ∧ r.length + A s = s.length + A r ∧ nest r + l ≤ d ∧
        ∀ j y, Runs charLeaf g r j y → Bd A (k * a) X r j y := fun r v i h3 h4 => by
      have h5 := (runs_fine hs h3).1
      have h6 := suffix_lt h5 h4
      have h7 := hts.effect' body_tame hs h3
      have h8 := hms.meas _ _ _ _ h3
      have h9 := hsep.brief _ _ _ h3
      exact ⟨h9, h5, h6, by omega, h8, by omega, hg.lin d a ha hc r (by omega)⟩
    have hkA : ∀ m, m + 1 ≤ A s → k * a * (m + 1) + b ≤ 2 * b * A s + k * a := fun m hm => by
      have h1 : k * a * (m + 1) ≤ b * A s := Nat.mul_le_mul (by omega) hm
      have h2 : b ≤ b * A s := Nat.le_mul_of_pos_right _ (by omega)
      have h3 : 2 * b * A s = b * A s + b * A s := by rw [Nat.mul_assoc, Nat.two_mul]
      omega
    cases h with
    | noSep h =>
      refine ⟨by have := h2 _ _ h; omega, fun r v e => ?_⟩
      cases e
      exact ⟨rfl, List.suffix_refl _, .inl (by have := h2 _ _ h; omega)⟩
    | sepErr h => exact ⟨by have := h2 _ _ h; omega, fun _ _ e => by cases e⟩
    | sepEmpty h => exact ⟨by have := h2 _ _ h; omega, fun _ _ e => by cases e⟩
    | noElem h hne h' =>
      obtain ⟨h3, h4, h5, h6, h7, h8, h9⟩ := h0 _ _ _ h hne
      have h10 := (h9 _ _ h').total
      have h11 := hkA _ h6
      refine ⟨by omega, fun r v e => ?_⟩
      cases e
      refine ⟨rfl, List.suffix_refl _, ?_⟩
      rcases hf _ _ _ h' with h12 | h12
      · exact .inl (by omega)
      · exact .inr (hD _ _ _ _ h h12)
    | elemErr h hne h' =>
      obtain ⟨h3, h4, h5, h6, h7, h8, h9⟩ := h0 _ _ _ h hne
      have h10 := (h9 _ _ h').total
      have h11 := hkA _ h6
      exact ⟨by omega, fun _ _ e => by cases e⟩
    | back h hne h' =>
      obtain ⟨h3, h4, h5, h6, h7, h8, h9⟩ := h0 _ _ _ h hne
      have h10 := (h9 _ _ h').total
      have h11 := hkA _ h6
      exact ⟨by omega, fun _ _ e => by cases e⟩
    | @more _ _ _ _ _ r q _ v y i j e h hne h' hne2 h3' =>
      obtain ⟨h3, h4, h5, h6, h7, h8, h9⟩ := h0 _ _ _ h hne
      obtain ⟨h10, h11⟩ := h9 _ _ h'
      obtain ⟨h12, h13, h14⟩ := h11 _ _ rfl
      have h15 := h13.length_le
      have h16 := htg.effect' body_tame hs' h'
      have h17 := hkA _ h6
      rcases h14 with h14 | ⟨ch, h18, h19⟩
      · obtain ⟨h20, h21⟩ := ih _ (by omega) (by omega) _ _ h3'
        have h22 : ∀ m, i + j + 2 * b * m ≤ 2 * b * (s.length - q.length + m) := fun m => by
          have h23 : k * a * (r.length - q.length + 1) ≤ k * a * (s.length - q.length) := Nat.mul_le_mul_left _ (by omega)
          have h24 : ks * a ≤ ks * a * (s.length - q.length) := Nat.le_mul_of_pos_right _ (by omega)
          have h25 : ks * a * (s.length - q.length) + k * a * (s.length - q.length) ≤ 2 * b * (s.length - q.length) := by
            rw [← Nat.add_mul]; exact Nat.mul_le_mul_right _ (by omega)
          rw [Nat.mul_add]
          omega
        refine ⟨?_, fun r' v' e' => ?_⟩
        · have := h22 (A q)
          have := hmul (s.length - q.length + A q) (A s) (by omega)
          omega
        · obtain ⟨u, h23⟩ := consRes_eq e'
          obtain ⟨h24, h25, h26⟩ := h21 _ _ h23
          have h28 := h25.length_le
          refine ⟨by omega, h25.trans (h13.trans h4), h26.imp_left fun h26 => ?_⟩
          have := h22 (q.length - r'.length)
          rw [show s.length - q.length + (q.length - r'.length) = s.length - r'.length by omega] at this
          omega
      · obtain ⟨m, h20⟩ := hXs.blunts _ h18
        have h21 : ∀ m r v, ¬ Runs charLeaf sep q m (.ok r v) := fun m r v h => by
          obtain ⟨-, e, h⟩ := h20.blunt _ _ _ h19 h
          cases h
        have h22 : e ≤ ks ∧ ∀ r v, y = .ok r v → r = q := by
          cases h3' with
          | noSep h => exact ⟨hsep.brief _ _ _ h, fun _ _ e => by cases e; rfl⟩
          | sepErr h => exact ⟨hsep.brief _ _ _ h, fun _ _ e => by cases e⟩
          | sepEmpty h => exact (h21 _ _ _ h).elim
          | noElem h => exact (h21 _ _ _ h).elim
          | elemErr h => exact (h21 _ _ _ h).elim
          | back h => exact (h21 _ _ _ h).elim
          | more h => exact (h21 _ _ _ h).elim
        refine ⟨by omega, fun r' v' e' => ?_⟩
        obtain ⟨u, h23⟩ := consRes_eq e'
        obtain rfl := h22.2 _ _ h23
        exact ⟨by omega, h13.trans h4, .inr (hX _ _ h18 h19)⟩

theorem list_lin (hD0 : ∀ s, B s → D s) (s : Str) (hd : nest s + l ≤ d) (c : Nat) (x : Res Char (List α))
    (h : Runs charLeaf (.separatedList sep g) s c x) : BdD A (2 * (ks + k + kf) * a) D s c x := by
  have tl := tail_lin ha hc hs hs' hts htg hsep hms hg hf hD hX hXs
  obtain ⟨b, hb⟩ : ∃ b, b = (ks + k + kf) * a := ⟨_, rfl⟩
  have hb2 : 2 * (ks + k + kf) * a = 2 * b := by rw [hb, Nat.mul_assoc]
  rw [hb2, ← hb] at tl
  rw [hb2]
  have hb3 : b = ks * a + k * a + kf * a := by rw [hb, Nat.add_mul, Nat.add_mul]
  have hkf : kf ≤ kf * a := Nat.le_mul_of_pos_right _ ha
  have hks : ks ≤ ks * a := Nat.le_mul_of_pos_right _ ha
  have hk : ∀ m, k * a * (m + 1) ≤ b * (m + 1) := fun m => Nat.mul_le_mul_right _ (by omega)
  have hbb : ∀ m, 2 * b * (m + 1) = b * (m + 1) + b * m + b := fun m => by
    rw [Nat.mul_assoc, Nat.two_mul, Nat.mul_add b m 1]; omega
  have hbn : ∀ m, b ≤ b * (m + 1) := fun m => Nat.le_mul_of_pos_right _ (by omega)
  have key := hg.lin d a ha hc s hd
  have := Runs.inv h
  simp only [Runs.Inv] at this
  rcases this with ⟨r, v, i, j, y, h1, h2, h3, rfl, rfl⟩ | ⟨v, h1, rfl⟩ | ⟨p, m, h1, rfl⟩ | ⟨e, -, h1, rfl⟩
  · obtain ⟨h4, h5⟩ := key _ _ h1
    obtain ⟨h6, h7, h8⟩ := h5 _ _ rfl
    have h9 := htg.effect' body_tame hs' h1
    have h10 := h7.length_le
    have hkA := hk (A s)
    have hbA := hbb (A s)
    rcases h8 with h8 | ⟨ch, h8, h8'⟩
    · obtain ⟨h11, h12⟩ := tl r.length r (Nat.le_refl _) (by omega) _ _ h3
      have h22 : ∀ m, i + 2 * b * m + b ≤ 2 * b * (s.length - r.length + m + 1) := fun m => by
        have := hk (s.length - r.length)
        have h23 : 2 * b * (s.length - r.length + m + 1) = 2 * b * (s.length - r.length + 1) + 2 * b * m := by
          rw [← Nat.mul_add]; congr 1; omega
        have h24 := hbb (s.length - r.length)
        omega
      refine ⟨?_, fun r' v' e' => ?_⟩
      · have := h22 (A r)
        have := Nat.mul_le_mul_left (2 * b) (show s.length - r.length + A r + 1 ≤ A s + 1 by omega)
        omega
      · obtain ⟨u, h23⟩ := consRes_eq e'
        obtain ⟨h24, h25, h26⟩ := h12 _ _ h23
        have h28 := h25.length_le
        refine ⟨by omega, h25.trans h7, h26.imp_left fun h26 => ?_⟩
        have := h22 (r.length - r'.length)
        rw [show s.length - r.length + (r.length - r'.length) = s.length - r'.length by omega] at this
        omega
    · obtain ⟨m, h20⟩ := hXs.blunts _ h8
      have h21 : ∀ m r' v, ¬ Runs charLeaf sep r m (.ok r' v) := fun m r v h => by
        obtain ⟨-, e, h⟩ := h20.blunt _ _ _ h8' h
        cases h
      have h22 : j ≤ ks ∧ ∀ r' v, y = .ok r' v → r' = r := by
        clear h
        cases h3 with
        | noSep h => exact ⟨hsep.brief _ _ _ h, fun _ _ e => by cases e; rfl⟩
        | sepErr h => exact ⟨hsep.brief _ _ _ h, fun _ _ e => by cases e⟩
        | sepEmpty h => exact (h21 _ _ _ h).elim
        | noElem h => exact (h21 _ _ _ h).elim
        | elemErr h => exact (h21 _ _ _ h).elim
        | back h => exact (h21 _ _ _ h).elim
        | more h => exact (h21 _ _ _ h).elim
      refine ⟨by omega, fun r' v' e' => ?_⟩
      obtain ⟨u, h23⟩ := consRes_eq e'
      obtain rfl := h22.2 _ _ h23
      exact ⟨h6, h7, .inr (hX _ _ h8 h8')⟩
  · have hkA := hk (A s)
    have hbA := hbb (A s)
    exact ⟨by have := (key _ _ h1).total; omega, fun _ _ e => by cases e⟩
  · have hkA := hk (A s)
    have hbA := hbb (A s)
    refine ⟨by have := (key _ _ h1).total; omega, fun r v e => ?_⟩
    cases e
    refine ⟨rfl, List.suffix_refl _, ?_⟩
    rcases hf _ _ _ h1 with h2 | h2
    · exact .inl (by have := hbb (s.length - s.length); have := hbn (s.length - s.length); omega)
    · exact .inr (hD0 _ h2)
  · have hkA := hk (A s)
    have hbA := hbb (A s)
    exact ⟨by have := (key _ _ h1).total; omega, fun _ _ e => by cases e⟩

theorem list1_lin (hD0 : ∀ s, B s → D s) (s : Str) (hd : nest s + l ≤ d) (c : Nat) (x : Res Char (List α))
    (h : Runs charLeaf (.separatedNonemptyList sep g) s c x) : BdD A (2 * (ks + k + kf) * a) D s c x := by
  have key := list_lin ha hc hs hs' hts htg hsep hms hg hf hD hX hXs hD0 s hd
  have := Runs.inv h
  simp only [Runs.Inv] at this
  rcases this with ⟨r, v, i, j, y, h1, h2, h3, rfl, rfl⟩ | ⟨v, h1, rfl⟩ | ⟨e, h1, rfl⟩
  · exact key _ _ (.sepMore h1 h2 h3)
  · exact ⟨(key _ _ (.sepEmpty h1)).total, fun _ _ e => by cases e⟩
  · refine ⟨?_, fun _ _ e => by cases e⟩
    by_cases h2 : ∃ p k, e = .error p k
    · obtain ⟨p, k, rfl⟩ := h2
      exact (key _ _ (.sepStop h1)).total
    · exact (key _ _ (.sepErr h1 fun p k h => h2 ⟨p, k, h⟩)).total

end

/-! ## Enclosed lists -/

theorem leaf_at {p : Punct} {z : Char} (hp : p.text.head? = some z) {s r : Str} {v : Unit}
    (h : charLeaf _ (.punct p) s = .ok r v) : At z s := by
  obtain ⟨w, e, h1, h2, -, -⟩ := charLeaf_ok_iff.1 h
  have h2 : w = p.text := h2
  subst h2
  cases ht : p.text with
  | nil => rw [ht] at hp; cases hp
  | cons y t =>
    rw [ht] at hp h1
    cases hp
    exact ⟨t ++ e, h1⟩

theorem punct_runs {p : Punct} {s : Str} {c : Nat} {x : Res Char Unit} (h : Runs charLeaf (G.punct p) s c x) :
    c = 1 ∧ x = charLeaf _ (.punct p) s := Runs.inv h

theorem lin_enclosed {o cl : Punct} {z : Char} {g : G α} {m w w' k : Nat} {st : Bool} (hz : cl.text.head? = some z)
    (hs : Guarded true g st) (hto : Tame l (G.punct o) m w 6) (htg : Tame m g m w' 6) [ho : Leafy A (.punct o)]
    [hcl : Leafy A (.punct cl)]
    (hg : ∀ d a, 1 ≤ a → Calls A d a → ∀ s, nest s + m ≤ d → ∀ c x, Runs charLeaf g s c x →
      BdD A (k * a) (fun r => ¬ At z r) s c x) :
    Lin A l (.bind (G.punct o) fun _ => .bind g fun b => .bind (G.punct cl) fun _ => .ret b) [] (k + 2) :=
  ⟨fun d a ha hc s hd c x hr => by
  have ha' : ∀ n, (k + 2) * a * (n + 1) = k * a * (n + 1) + 2 * a * (n + 1) := fun n => by rw [Nat.add_mul, Nat.add_mul]
  have ha2 : ∀ n, 2 ≤ 2 * a * (n + 1) := fun n => Nat.le_trans (show 2 ≤ 2 * a by omega) (Nat.le_mul_of_pos_right _ (by omega))
  have := Runs.inv hr
  simp only [Runs.Inv] at this
  rcases this with ⟨r, v, i, j, h1, h2, rfl⟩ | ⟨e, h1, rfl⟩
  · obtain ⟨rfl, e⟩ := punct_runs h1
    have h3 := hto.effect' body_tame (st := true) .leaf h1
    have h4 := leaf_suffix e.symm
    have h5 := leaf_lt e.symm
    have h6 := ho.leafy _ _ _ e.symm
    have := Runs.inv h2
    simp only [Runs.Inv] at this
    rcases this with ⟨q, u, i, j, h7, h8, rfl⟩ | ⟨e, h7, rfl⟩
    · obtain ⟨h9, h10⟩ := hg d a ha hc r (by omega) _ _ h7
      obtain ⟨h11, h12, h13⟩ := h10 _ _ rfl
      have h14 := h12.length_le
      have h15 : k * a * (A r + 1) ≤ k * a * (A s + 1) := Nat.mul_le_mul_left _ (by omega)
      have := Runs.inv h8
      simp only [Runs.Inv] at this
      rcases this with ⟨q', u', i', j', h16, h17, rfl⟩ | ⟨e, h16, rfl⟩
      · obtain ⟨rfl, rfl⟩ := Runs.inv h17
        obtain ⟨rfl, e'⟩ := punct_runs h16
        have h18 := leaf_suffix e'.symm
        have h19 := hcl.leafy _ _ _ e'.symm
        have h20 := h18.length_le
        refine ⟨?_, fun r' v' e'' => ?_⟩
        · rw [ha']
          have := ha2 (A s)
          omega
        · cases e''
          refine ⟨by omega, h18.trans (h12.trans h4), .inl ?_⟩
          rcases h13 with h13 | h13
          · have : k * a * (r.length - q.length + 1) ≤ k * a * (s.length - q'.length + 1) := Nat.mul_le_mul_left _ (by omega)
            have := ha2 (s.length - q'.length)
            rw [ha']
            omega
          · exact absurd (leaf_at hz e'.symm) h13
      · obtain ⟨rfl, -⟩ := punct_runs h16
        refine ⟨?_, fun _ _ e => by cases e⟩
        rw [ha']
        have := ha2 (A s)
        omega
    · obtain ⟨h9, h10⟩ := hg d a ha hc r (by omega) _ _ h7
      have h15 : k * a * (A r + 1) ≤ k * a * (A s + 1) := Nat.mul_le_mul_left _ (by omega)
      refine ⟨?_, fun _ _ e => by cases e⟩
      rw [ha']
      have := ha2 (A s)
      omega
  · obtain ⟨rfl, -⟩ := punct_runs h1
    refine ⟨?_, fun _ _ e => by cases e⟩
    rw [ha']
    have := ha2 (A s)
    omega⟩

theorem lin_list {o cl : Punct} {z : Char} {g : G α} {sep : G β} {X : List Char} {m w w' w'' k ks kf kb : Nat} {st st' : Bool}
    (hz : cl.text.head? = some z) (hs' : Guarded true g st') (hs : Guarded true sep st)
    (hto : Tame l (G.punct o) m w 6) (htg : Tame m g m w' 5) (htg' : Tame m g m w' 6) (hts : Tame m sep m w'' 6)
    (hts' : Tame m sep m w'' 5)
    [ho : Leafy A (.punct o)] [hcl : Leafy A (.punct cl)] (hsep : Brief sep ks) (hms : Meas A sep) (hg : Lin A m g X k)
    (hb : Blunt z g kf) (hbs : Blunt z sep kb) (hX : z ∉ X) (hXs : Blunts X sep) :
    Lin A l (.bind (G.punct o) fun _ => .bind (G.punctuated g sep) fun b => .bind (G.punct cl) fun _ => .ret b) []
      (2 * (ks + k + kf) + 2) :=
  lin_enclosed hz (.separatedList hs' hs) hto (.separatedList hs hs' hts' htg) fun d a ha hc s hd c x hr =>
    list_lin ha hc hs hs' hts htg' hsep hms hg (B := fun s => ¬ At z s) (D := fun s => ¬ At z s)
      (fun s c e h => by
        by_cases h' : At z s
        · exact .inl (hb.blunt _ _ _ h' h).1
        · exact .inr h')
      (fun s c r v h _ h' => by
        obtain ⟨-, e, h2⟩ := hbs.blunt _ _ _ h' h
        cases h2)
      (fun r ch h h' h2 => hX (by rw [h2.det h']; exact h)) hXs (fun _ h => h) s hd c x hr

/-- Lists of bounded elements. -/
theorem lin_briefs {g : G α} {sep : G β} {w w' k ks : Nat} {st st' : Bool}
    (hs' : Guarded true g st') (hs : Guarded true sep st) (htg : Tame l g l w' 6) (hts : Tame l sep l w 6)
    (hsep : Brief sep ks) (hms : Meas A sep) (hg : Brief g k) (hmg : Meas A g) :
    Lin A l (.separatedList sep g) [] (2 * (ks + k + k)) ∧ Lin A l (.separatedNonemptyList sep g) [] (2 * (ks + k + k)) := by
  have key : ∀ {α : Type} {g : G α} {k : Nat}, (∀ d a, 1 ≤ a → Calls A d a → ∀ s, nest s + l ≤ d → ∀ c x, Runs charLeaf g s c x →
      BdD A (k * a) (fun _ => False) s c x) → Lin A l g [] k := fun h => ⟨fun d a ha hc s hd c x hr => by
    obtain ⟨h1, h2⟩ := h d a ha hc s hd c x hr
    refine ⟨h1, fun r v e => ?_⟩
    obtain ⟨h3, h4, h5⟩ := h2 r v e
    exact ⟨h3, h4, .inl (h5.resolve_right id)⟩⟩
  refine ⟨key fun d a ha hc s hd c x hr => ?_, key fun d a ha hc s hd c x hr => ?_⟩
  · exact list_lin ha hc hs hs' hts htg hsep hms (lin_brief hs' hg hmg) (B := fun _ => False)
      (fun s c e h => .inl (hg.brief _ _ _ h)) (fun _ _ _ _ _ h => h) (fun _ _ h => nomatch h) ⟨fun _ h => nomatch h⟩
      (fun _ h => h) s hd c x hr
  · exact list1_lin ha hc hs hs' hts htg hsep hms (lin_brief hs' hg hmg) (B := fun _ => False)
      (fun s c e h => .inl (hg.brief _ _ _ h)) (fun _ _ _ _ _ h => h) (fun _ _ h => nomatch h) ⟨fun _ h => nomatch h⟩
      (fun _ h => h) s hd c x hr

/-! ## Options and alternatives -/

/-- The parser fails at once on texts that do not begin with the character. -/
class Opens (c : Char) (g : G α) : Prop where
  opens : ∀ s n x, Runs charLeaf g s n x → At c s ∨ n ≤ 1 ∧ ∃ e, x = .err e

theorem opens_bind {p : Punct} {c : Char} {f : Unit → G α} (hp : p.text.head? = some c) : Opens c (.bind (G.punct p) f) :=
  ⟨fun s n x hr => by
  have := Runs.inv hr
  simp only [Runs.Inv] at this
  rcases this with ⟨r, v, i, j, h1, h2, rfl⟩ | ⟨e, h1, rfl⟩
  · obtain ⟨rfl, e⟩ := punct_runs h1
    exact .inl (leaf_at hp e.symm)
  · obtain ⟨rfl, -⟩ := punct_runs h1
    exact .inr ⟨Nat.le_refl _, e, rfl⟩⟩

instance {g : G α} : Opens '(' (G.parenthesized g) := opens_bind rfl
instance {g : G α} : Opens '[' (G.bracketed g) := opens_bind rfl
instance {c : Char} {g : G α} {f : α → G β} [h : Opens c g] : Opens c (g >>= f) := ⟨fun s n x hr => by
  have := Runs.inv hr
  simp only [Runs.Inv] at this
  rcases this with ⟨r, v, i, j, h1, h2, rfl⟩ | ⟨e, h1, rfl⟩
  · rcases h.opens _ _ _ h1 with h | ⟨-, e, h⟩
    · exact .inl h
    · cases h
  · exact (h.opens _ _ _ h1).imp_right fun h => ⟨h.1, e, rfl⟩⟩
instance {c : Char} {g : G α} {f : α → Bool → β} [h : Opens c g] : Opens c (G.mayBeNull f g) :=
  inferInstanceAs (Opens c (g >>= fun _ => _))

theorem lin_opt {c : Char} {g : G α} {k : Nat} (hg : Lin A l g [] k) (ho : Opens c g) : Lin A l (.opt g) [c] (k + 1) :=
  ⟨fun d a ha hc s hd n x hr => by
  have hk : ∀ m, k * a * (m + 1) ≤ (k + 1) * a * (m + 1) := fun m => Nat.mul_le_mul_right _ (Nat.mul_le_mul_right _ (by omega))
  have hk1 : ∀ m, 1 ≤ (k + 1) * a * (m + 1) := fun m => Nat.mul_pos (Nat.mul_pos (by omega) ha) (by omega)
  have := Runs.inv hr
  simp only [Runs.Inv] at this
  rcases this with ⟨r, v, h1, rfl⟩ | ⟨p, j, h1, rfl⟩ | ⟨e, -, h1, rfl⟩
  · obtain ⟨h2, h3⟩ := hg.lin d a ha hc s hd _ _ h1
    obtain ⟨h4, h5, h6⟩ := h3 _ _ rfl
    refine ⟨Nat.le_trans h2 (hk _), fun r v e => ?_⟩
    cases e
    refine ⟨h4, h5, .inl ?_⟩
    rcases h6 with h6 | ⟨_, h6, -⟩
    · exact Nat.le_trans h6 (hk _)
    · cases h6
  · obtain ⟨h2, h3⟩ := hg.lin d a ha hc s hd _ _ h1
    refine ⟨Nat.le_trans h2 (hk _), fun r v e => ?_⟩
    cases e
    refine ⟨rfl, List.suffix_refl _, ?_⟩
    rcases ho.opens _ _ _ h1 with h | h
    · exact .inr ⟨c, by simp, h⟩
    · exact .inl (Nat.le_trans h.1 (hk1 _))
  · obtain ⟨h2, h3⟩ := hg.lin d a ha hc s hd _ _ h1
    exact ⟨Nat.le_trans h2 (hk _), fun _ _ e => by cases e⟩⟩

/-- Two alternatives, where what the first one tries in vain is accounted for when the second one accepts. -/
theorem lin_orElse {g h : G α} {X : List Char} {k k' kf : Nat} (hg : Lin A l g X k) (hh : Lin A l h X k')
    (hf : ∀ s n e m r v, Runs charLeaf g s n (.err e) → Runs charLeaf h s m (.ok r v) → n ≤ kf ∨ ∃ ch ∈ X, At ch r) :
    Lin A l (.orElse g h) X (k + kf + k') := ⟨fun d a ha hc s hd n x hr => by
  have hk : ∀ m, (k + kf + k') * a * (m + 1) = k * a * (m + 1) + kf * a * (m + 1) + k' * a * (m + 1) := fun m => by
    rw [Nat.add_mul, Nat.add_mul, Nat.add_mul, Nat.add_mul]
  have hkf : ∀ m, kf ≤ kf * a * (m + 1) := fun m =>
    Nat.le_trans (Nat.le_mul_of_pos_right _ ha) (Nat.le_mul_of_pos_right _ (by omega))
  have := Runs.inv hr
  simp only [Runs.Inv] at this
  rcases this with ⟨r, v, h1, rfl⟩ | ⟨p, q, i, j, h1, h2, rfl⟩ | ⟨e, -, h1, rfl⟩
  · exact (hg.lin d a ha hc s hd _ _ h1).mono (Nat.mul_le_mul_right _ (by omega))
  · obtain ⟨h3, h4⟩ := hg.lin d a ha hc s hd _ _ h1
    obtain ⟨h5, h6⟩ := hh.lin d a ha hc s hd _ _ h2
    refine ⟨by rw [hk]; omega, fun r v e => ?_⟩
    obtain ⟨h7, h8, h9⟩ := h6 r v e
    refine ⟨h7, h8, ?_⟩
    subst e
    rcases hf _ _ _ _ _ _ h1 h2 with h10 | h10
    · refine h9.imp_left fun h9 => ?_
      have := hkf (s.length - r.length)
      rw [hk]
      omega
    · exact .inr h10
  · exact (hg.lin d a ha hc s hd _ _ h1).mono (Nat.mul_le_mul_right _ (by omega))⟩

theorem lin_altEnd : Lin A l (.altEnd : G α) [] 0 := ⟨fun d a ha hc s hd n x hr => by
  obtain ⟨rfl, rfl⟩ := Runs.inv hr
  exact ⟨Nat.zero_le _, fun _ _ e => by cases e⟩⟩

/-- A bounded first alternative. -/
theorem lin_brief_or {g h : G α} {st : Bool} {X : List Char} {k k' : Nat} (hs : Guarded true g st) (hb : Brief g k) (hm : Meas A g)
    (hh : Lin A l h X k') : Lin A l (.orElse g h) X (k + k') := ⟨fun d a ha hc s hd n x hr => by
  have hk : ∀ m, (k + k') * a * (m + 1) = k * a * (m + 1) + k' * a * (m + 1) := fun m => by rw [Nat.add_mul, Nat.add_mul]
  have hkf : ∀ m, k ≤ k * a * (m + 1) := fun m =>
    Nat.le_trans (Nat.le_mul_of_pos_right _ ha) (Nat.le_mul_of_pos_right _ (by omega))
  have := Runs.inv hr
  simp only [Runs.Inv] at this
  rcases this with ⟨r, v, h1, rfl⟩ | ⟨p, q, i, j, h1, h2, rfl⟩ | ⟨e, -, h1, rfl⟩
  · exact (((lin_brief (A := A) (l := l) hs hb hm).weaken (Y := X) (fun _ h => nomatch h)).lin d a ha hc s hd _ _ h1).mono
      (Nat.mul_le_mul_right _ (by omega))
  · have h3 := hb.brief _ _ _ h1
    obtain ⟨h5, h6⟩ := hh.lin d a ha hc s hd _ _ h2
    refine ⟨by have := hkf (A s); rw [hk]; omega, fun r v e => ?_⟩
    obtain ⟨h7, h8, h9⟩ := h6 r v e
    refine ⟨h7, h8, h9.imp_left fun h9 => ?_⟩
    have := hkf (s.length - r.length)
    rw [hk]
    omega
  · exact (((lin_brief (A := A) (l := l) hs hb hm).weaken (Y := X) (fun _ h => nomatch h)).lin d a ha hc s hd _ _ h1).mono
      (Nat.mul_le_mul_right _ (by omega))⟩

/-- Two alternatives that are told apart by the first character. -/
theorem lin_open_or {c : Char} {g h : G α} {X : List Char} {k k' kf : Nat} (hg : Lin A l g X k) (hb : Blunt c g kf)
    (hh : Lin A l h X k') (ho : Opens c h) : Lin A l (.orElse g h) X (k + kf + k') :=
  lin_orElse hg hh fun s n e m r v h1 h2 => by
    rcases ho.opens _ _ _ h2 with h | ⟨-, e, h⟩
    · exact .inl (hb.blunt _ _ _ h h1).1
    · cases h

instance {N : NT α} : Lin A (l + 1) (.call N) ['<'] 1 := ⟨fun d a _ hc s hd n x hr => by
  rw [Nat.one_mul]
  exact (hc _ N s n x (by omega) hr).1⟩

end Verif.Linear
