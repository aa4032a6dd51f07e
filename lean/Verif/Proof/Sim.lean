import Verif.Proof.Knot

/-!
# Two runs of the same grammar

If the leaves of two runs are related, so are the runs. The right-hand run may get stuck
(`failure`, `diverge`); then nothing is claimed.
-/

namespace Verif
open Nom

variable {σ σ' α β : Type}

/-- Related results for inputs `s` and `t`. -/
inductive RR (R : List σ → List σ' → Prop) (s : List σ) (t : List σ') :
    Res σ α → Res σ' α → Prop where
  | ok {r r' : _} {a : α} (hR : R r r') (h1 : r <:+ s) (h2 : r' <:+ t) (h3 : r = s ↔ r' = t) :
      RR R s t (.ok r a) (.ok r' a)
  | error {p p' : _} {k k' : ErrorKind} : RR R s t (.err (.error p k)) (.err (.error p' k'))
  | diverge {x : _} : RR R s t x .diverge
  | failure {x : _} {p : _} {k : ErrorKind} : RR R s t x (.err (.failure p k))
  | incomplete {x : _} : RR R s t x (.err .incomplete)

variable [DecidableEq σ] [DecidableEq σ'] {R : List σ → List σ' → Prop}

omit [DecidableEq σ] [DecidableEq σ'] in
theorem RR.trans {s r : List σ} {t r' : List σ'} {x : Res σ α} {y : Res σ' α}
    (h : RR R r r' x y) (h1 : r <:+ s) (h2 : r' <:+ t) (h3 : r = s ↔ r' = t) : RR R s t x y := by
  cases h with
  | ok hR k1 k2 k3 =>
    refine .ok hR (k1.trans h1) (k2.trans h2) ?_
    constructor
    · intro e
      have h4 := h1.eq_of_length_le (e ▸ k1.length_le)
      rw [← h3.1 h4]; exact k3.1 (e.trans h4.symm)
    · intro e
      have h4 := h2.eq_of_length_le (e ▸ k2.length_le)
      rw [← h3.2 h4]; exact k3.2 (e.trans h4.symm)
  | error => exact .error
  | diverge => exact .diverge
  | failure => exact .failure
  | incomplete => exact .incomplete

/-! ## Suffixes, without termination -/

theorem suff_many0Loop {p : P σ α} (hp : Suff p) (n : Nat) : Suff (many0Loop p n) := by
  induction n with
  | zero => intro s r a h; simp [many0Loop] at h
  | succ n ih =>
    intro s r a h
    simp only [many0Loop] at h
    split at h <;> try (simp at h; try (rw [← h.1]; exact List.suffix_refl _))
    next i x e =>
    split at h
    · cases h
    · cases h' : many0Loop p n i with
      | ok r' as =>
        rw [h'] at h; simp [consRes] at h
        rw [← h.1]; exact (ih _ _ _ h').trans (hp _ _ _ e)
      | err e => rw [h'] at h; simp [consRes] at h
      | diverge => rw [h'] at h; simp [consRes] at h

theorem suff_sepLoop {sep : P σ β} {p : P σ α} (hsep : Suff sep) (hp : Suff p) (n : Nat) :
    Suff (sepLoop sep p n) := by
  induction n with
  | zero => intro s r a h; simp [sepLoop] at h
  | succ n ih =>
    intro s r a h
    simp only [sepLoop] at h
    split at h <;> try (simp at h; try (rw [← h.1]; exact List.suffix_refl _))
    next i x e =>
    split at h
    · cases h
    · split at h <;> try (simp at h; try (rw [← h.1]; exact List.suffix_refl _))
      next i2 y e2 =>
      split at h
      · cases h
      · cases h' : sepLoop sep p n i2 with
        | ok r' as =>
          rw [h'] at h; simp [consRes] at h
          rw [← h.1]; exact (ih _ _ _ h').trans ((hp _ _ _ e2).trans (hsep _ _ _ e))
        | err e => rw [h'] at h; simp [consRes] at h
        | diverge => rw [h'] at h; simp [consRes] at h

omit [DecidableEq σ] in
theorem suff_consRes {p : P σ (List α)} (hp : Suff p) {a : α} {i r : List σ} {as : List α}
    (h : consRes a (p i) = .ok r as) : r <:+ i := by
  cases h' : p i with
  | ok r' as =>
    rw [h'] at h; simp [consRes] at h
    rw [← h.1]; exact hp _ _ _ h'
  | err e => rw [h'] at h; simp [consRes] at h
  | diverge => rw [h'] at h; simp [consRes] at h

theorem suff_run {leaf : ∀ α, Leaf α → P σ α} {nt : ∀ α, NT α → P σ α}
    (hl : ∀ α l, Suff (leaf α l)) (hn : ∀ α N, Suff (nt α N)) (g : G α) :
    Suff (g.run leaf nt) := by
  induction g with
  | ret a => intro s r b h; simp [G.run, Nom.ret] at h; rw [← h.1]; exact List.suffix_refl _
  | leaf l => exact hl _ l
  | bind g f ih1 ih2 =>
    intro s r b h
    simp only [G.run, Nom.seq] at h
    split at h
    · next i a e => exact (ih2 a _ _ _ h).trans (ih1 _ _ _ e)
    · cases h
    · cases h
  | orElse g h ih1 ih2 =>
    intro s r b h
    simp only [G.run, Nom.orElse] at h
    split at h
    · exact ih2 _ _ _ h
    · exact ih1 _ _ _ h
  | altEnd => intro s r b h; simp [G.run, Nom.altEnd] at h
  | opt g ih =>
    intro s r b h
    simp only [G.run, Nom.opt] at h
    split at h <;> simp at h
    · next i a e => rw [← h.1]; exact ih _ _ _ e
    · rw [← h.1]; exact List.suffix_refl _
  | many0 g ih => intro s r b h; exact suff_many0Loop ih _ _ _ _ h
  | separatedList sep g ih1 ih2 =>
    intro s r b h
    simp only [G.run, Nom.separatedList] at h
    split at h <;> try (simp at h; try (rw [← h.1]; exact List.suffix_refl _))
    next i a e =>
    split at h
    · cases h
    · exact (suff_consRes (suff_sepLoop ih1 ih2 _) h).trans (ih2 _ _ _ e)
  | separatedNonemptyList sep g ih1 ih2 =>
    intro s r b h
    simp only [G.run, Nom.separatedNonemptyList] at h
    split at h <;> try (simp at h; try (rw [← h.1]; exact List.suffix_refl _))
    next i a e =>
    split at h
    · cases h
    · exact (suff_consRes (suff_sepLoop ih1 ih2 _) h).trans (ih2 _ _ _ e)
  | call n => exact hn _ n

theorem suff_ntRun {leaf : ∀ α, Leaf α → P σ α} (hl : ∀ α l, Suff (leaf α l)) (n : Nat) :
    ∀ α N, Suff (ntRun leaf n α N) := by
  induction n with
  | zero => intro α N s r a h; simp [ntRun] at h
  | succ n ih => intro α N; exact suff_run hl ih _

/-! ## The simulation -/

omit [DecidableEq σ] [DecidableEq σ'] in
theorem rr_consRes {s : List σ} {t : List σ'} {x : Res σ (List α)} {y : Res σ' (List α)} {a : α}
    (h : RR R s t x y) : RR R s t (consRes a x) (consRes a y) := by
  cases h with
  | ok hR h1 h2 h3 => exact .ok hR h1 h2 h3
  | error => exact .error
  | diverge => exact .diverge
  | failure => exact .failure
  | incomplete => exact .incomplete

theorem sim_many0 {p : P σ α} {p' : P σ' α} (hp : Suff p) (hp' : Suff p')
    (h : ∀ s t, R s t → RR R s t (p s) (p' t)) :
    ∀ s t, R s t → RR R s t (many0 p s) (many0 p' t) := by
  intro s
  induction hn : s.length using Nat.strongRecOn generalizing s with
  | ind n ih =>
    intro t hR
    rw [many0_eq hp, many0_eq hp']
    have h0 := h s t hR
    revert h0
    generalize p s = x
    generalize p' t = y
    intro h0
    cases h0 with
    | ok hR h1 h2 h3 =>
      dsimp only
      split
      · next e => rw [if_pos (h3.1 e)]; exact .error
      · next e =>
        rw [if_neg (fun h => e (h3.2 h))]
        have := suffix_ne_length h1 e
        exact rr_consRes ((ih _ (by omega) _ rfl _ hR).trans h1 h2 h3)
    | error => exact .ok hR (List.suffix_refl _) (List.suffix_refl _) (by simp)
    | diverge => exact .diverge
    | failure => exact .failure
    | incomplete => exact .incomplete

theorem sim_sepTail {sep : P σ β} {sep' : P σ' β} {p : P σ α} {p' : P σ' α} (hp : Suff p)
    (hp' : Suff p') (hsep : Suff sep) (hsep' : Suff sep')
    (h : ∀ s t, R s t → RR R s t (p s) (p' t)) (hs : ∀ s t, R s t → RR R s t (sep s) (sep' t)) :
    ∀ s t, R s t → RR R s t (sepTail sep p s) (sepTail sep' p' t) := by
  intro s
  induction hn : s.length using Nat.strongRecOn generalizing s with
  | ind n ih =>
    intro t hR
    rw [sepTail_eq hsep hp, sepTail_eq hsep' hp']
    have h0 := hs s t hR
    revert h0
    generalize sep s = x
    generalize sep' t = y
    intro h0
    cases h0 with
    | @ok r r' b hR' h1 h2 h3 =>
      dsimp only
      split
      · next e => rw [if_pos (h3.1 e)]; exact .error
      · next e =>
        rw [if_neg (fun h => e (h3.2 h))]
        have hlt := suffix_ne_length h1 e
        have h0 := h r r' hR'
        revert h0
        generalize p r = x
        generalize p' r' = y
        intro h0
        cases h0 with
        | @ok q q' a hR'' k1 k2 k3 =>
          have h4 : q ≠ s := by rintro rfl; have := k1.length_le; omega
          have h5 : q' ≠ t := by
            rintro rfl
            have := h2.eq_of_length_le k2.length_le
            exact e (h3.2 this)
          dsimp only
          rw [if_neg h4, if_neg h5]
          have := k1.length_le
          exact rr_consRes ((ih _ (by omega) _ rfl _ hR'').trans (k1.trans h1) (k2.trans h2)
            (by simp [h4, h5]))
        | error => exact .ok hR (List.suffix_refl _) (List.suffix_refl _) (by simp)
        | diverge => exact .diverge
        | failure => exact .failure
        | incomplete => exact .incomplete
    | error => exact .ok hR (List.suffix_refl _) (List.suffix_refl _) (by simp)
    | diverge => exact .diverge
    | failure => exact .failure
    | incomplete => exact .incomplete

theorem sim_run {leaf : ∀ α, Leaf α → P σ α} {leaf' : ∀ α, Leaf α → P σ' α}
    {nt : ∀ α, NT α → P σ α} {nt' : ∀ α, NT α → P σ' α}
    (hl : ∀ α l, Suff (leaf α l)) (hn : ∀ α N, Suff (nt α N))
    (hl' : ∀ α l, Suff (leaf' α l)) (hn' : ∀ α N, Suff (nt' α N))
    (leafR : ∀ α l s t, R s t → RR R s t (leaf α l s) (leaf' α l t))
    (ntR : ∀ α N s t, R s t → RR R s t (nt α N s) (nt' α N t)) (g : G α) :
    ∀ s t, R s t → RR R s t (g.run leaf nt s) (g.run leaf' nt' t) := by
  induction g with
  | ret a => intro s t h; exact .ok h (List.suffix_refl _) (List.suffix_refl _) (by simp)
  | leaf l => exact leafR _ l
  | bind g f ih1 ih2 =>
    intro s t h
    simp only [G.run, Nom.seq]
    have h0 := ih1 s t h
    revert h0
    generalize g.run leaf nt s = x
    generalize g.run leaf' nt' t = y
    intro h0
    cases h0 with
    | ok hR h1 h2 h3 => exact (ih2 _ _ _ hR).trans h1 h2 h3
    | error => exact .error
    | diverge => exact .diverge
    | failure => exact .failure
    | incomplete => exact .incomplete
  | orElse g g' ih1 ih2 =>
    intro s t h
    simp only [G.run, Nom.orElse]
    have h0 := ih1 s t h
    revert h0
    generalize g.run leaf nt s = x
    generalize g.run leaf' nt' t = y
    intro h0
    cases h0 with
    | ok hR h1 h2 h3 => exact .ok hR h1 h2 h3
    | error => exact ih2 s t h
    | diverge => exact .diverge
    | failure => exact .failure
    | incomplete => exact .incomplete
  | altEnd => intro s t h; exact .error
  | opt g ih =>
    intro s t h
    simp only [G.run, Nom.opt]
    have h0 := ih s t h
    revert h0
    generalize g.run leaf nt s = x
    generalize g.run leaf' nt' t = y
    intro h0
    cases h0 with
    | ok hR h1 h2 h3 => exact .ok hR h1 h2 h3
    | error => exact .ok h (List.suffix_refl _) (List.suffix_refl _) (by simp)
    | diverge => exact .diverge
    | failure => exact .failure
    | incomplete => exact .incomplete
  | many0 g ih => exact sim_many0 (suff_run hl hn g) (suff_run hl' hn' g) ih
  | separatedList sep g ih1 ih2 =>
    intro s t h
    simp only [G.run, Nom.separatedList]
    have h0 := ih2 s t h
    revert h0
    generalize g.run leaf nt s = x
    generalize g.run leaf' nt' t = y
    intro h0
    cases h0 with
    | ok hR h1 h2 h3 =>
      dsimp only
      split
      · next e => rw [if_pos (h3.1 e)]; exact .error
      · next e =>
        rw [if_neg (fun h => e (h3.2 h))]
        exact rr_consRes ((sim_sepTail (suff_run hl hn g) (suff_run hl' hn' g)
          (suff_run hl hn sep) (suff_run hl' hn' sep) ih2 ih1 _ _ hR).trans h1 h2 h3)
    | error => exact .ok h (List.suffix_refl _) (List.suffix_refl _) (by simp)
    | diverge => exact .diverge
    | failure => exact .failure
    | incomplete => exact .incomplete
  | separatedNonemptyList sep g ih1 ih2 =>
    intro s t h
    simp only [G.run, Nom.separatedNonemptyList]
    have h0 := ih2 s t h
    revert h0
    generalize g.run leaf nt s = x
    generalize g.run leaf' nt' t = y
    intro h0
    cases h0 with
    | ok hR h1 h2 h3 =>
      dsimp only
      split
      · next e => rw [if_pos (h3.1 e)]; exact .error
      · next e =>
        rw [if_neg (fun h => e (h3.2 h))]
        exact rr_consRes ((sim_sepTail (suff_run hl hn g) (suff_run hl' hn' g)
          (suff_run hl hn sep) (suff_run hl' hn' sep) ih2 ih1 _ _ hR).trans h1 h2 h3)
    | error => exact .error
    | diverge => exact .diverge
    | failure => exact .failure
    | incomplete => exact .incomplete
  | call n => exact ntR _ n

theorem sim_ntRun {leaf : ∀ α, Leaf α → P σ α} {leaf' : ∀ α, Leaf α → P σ' α}
    (hl : ∀ α l, Suff (leaf α l)) (hl' : ∀ α l, Suff (leaf' α l))
    (leafR : ∀ α l s t, R s t → RR R s t (leaf α l s) (leaf' α l t)) (n : Nat) :
    ∀ α N s t, R s t → RR R s t (ntRun leaf n α N s) (ntRun leaf' n α N t) := by
  induction n with
  | zero => intro α N s t h; exact .diverge
  | succ n ih =>
    intro α N
    exact sim_run hl (suff_ntRun hl n) hl' (suff_ntRun hl' n) leafR ih _

/-- Two runs with related leaves, on related inputs. -/
theorem sim {leaf : ∀ α, Leaf α → P σ α} {leaf' : ∀ α, Leaf α → P σ' α}
    (hl : ∀ α l u, Fine true u (leaf α l u)) (hl' : ∀ α l, Suff (leaf' α l))
    (leafR : ∀ α l s t, R s t → RR R s t (leaf α l s) (leaf' α l t))
    {g : G α} {b : Bool} (hg : Guarded true g b) {s : List σ} {t : List σ'} (h : R s t) {n : Nat}
    (hn : s.length < n) :
    RR R s t (g.parseWith leaf s) (g.run leaf' (ntRun leaf' n) t) := by
  have hs : ∀ α l, Suff (leaf α l) := fun α l => suff_of_fine (hl α l)
  rw [← run_eq_parseWith hl hg (n := n) hn]
  exact sim_run hs (suff_ntRun hs n) hl' (suff_ntRun hl' n) leafR (sim_ntRun hs hl' leafR n) g s t h

theorem sim_fine {leaf : ∀ α, Leaf α → P σ α} {leaf' : ∀ α, Leaf α → P σ' α}
    (hl : ∀ α l u, Fine true u (leaf α l u)) (hl' : ∀ α l u, Fine true u (leaf' α l u))
    (leafR : ∀ α l s t, R s t → RR R s t (leaf α l s) (leaf' α l t))
    {g : G α} {b : Bool} (hg : Guarded true g b) {s : List σ} {t : List σ'} (h : R s t) :
    RR R s t (g.parseWith leaf s) (g.parseWith leaf' t) := by
  have := sim hl (fun α l => suff_of_fine (hl' α l)) leafR hg h
    (n := s.length + t.length + 1) (by omega)
  rwa [run_eq_parseWith hl' hg (by omega)] at this

end Verif
