import Verif.Proof.VisitsList

/-! # Visits of types -/

namespace Verif.Visits
open Nom Spec
open Linear (At Refuse Sign Leafy ahead leaf_suffix leaf_lt ahead_le body_tame Usual consRes_eq leaf_at Generic Sticky kw_kw kw_ident Brief)

set_option synthInstance.maxSize 2000
set_option synthInstance.maxHeartbeats 400000

variable {α β : Type} {A : Str → Nat} {l m : Nat} {c : Char} {w : Kw}

/-! ## Words -/

/-- Nothing beyond the first word is looked at. -/
def NearAt (m : Nat) (s : Str) (n : Nat) : Prop :=
  m < s.length → (∀ k q u, charLeaf _ (.kw k) s = .ok q u → m < q.length) → n = 0

/-- When the parser fails, it has not looked beyond the first word. -/
class Near (g : G α) : Prop where
  near : ∀ m s n e, V m g s n (.err e) → NearAt m s n

/-- If the text begins with a word, the parser accepts at least that word, or nothing. -/
class Word' (g : G α) : Prop where
  word' : ∀ m s n r v, V m g s n (.ok r v) → r = s ∨ ∀ k q u, charLeaf _ (.kw k) s = .ok q u → r.length ≤ q.length

/-- If the text begins with a word, the parser accepts at least that word. -/
class Word (g : G α) : Prop where
  word : ∀ m s n r v, V m g s n (.ok r v) → ∀ k q u, charLeaf _ (.kw k) s = .ok q u → r.length ≤ q.length

theorem word_kw {k : Kw} : Word (.leaf (.kw k)) := ⟨fun m s n r v hr j q u h => by
  obtain ⟨-, e⟩ := Weighed.inv hr
  rw [(kw_kw e.symm h).2]
  exact Nat.le_refl _⟩
instance {k : Kw} : Word (G.kw k) := word_kw
instance : Word G.ident := ⟨fun m s n r v hr j q u h => by
  obtain ⟨-, e⟩ := Weighed.inv hr
  rw [kw_ident h e.symm]
  exact Nat.le_refl _⟩
theorem word_bind {g : G α} {f : α → G β} (hg : Word g) : Word (.bind g f) := ⟨fun m s n r v hr => by
  have := Weighed.inv hr
  simp only [Weighed.Inv] at this
  rcases this with ⟨q, u, i, j, h1, h2, rfl⟩ | ⟨e, h1, h2⟩
  · have := h2.suffix.length_le
    exact fun k q' u' h => Nat.le_trans this (hg.word _ _ _ _ _ h1 k q' u' h)
  · cases h2⟩
theorem word_bind' {g : G α} {f : α → G β} (hg : Word' g) (hf : ∀ a, Word (f a)) : Word (.bind g f) := ⟨fun m s n r v hr => by
  have := Weighed.inv hr
  simp only [Weighed.Inv] at this
  rcases this with ⟨q, u, i, j, h1, h2, rfl⟩ | ⟨e, h1, h2⟩
  · have := h2.suffix.length_le
    rcases hg.word' _ _ _ _ _ h1 with rfl | h
    · exact (hf u).word _ _ _ _ _ h2
    · exact fun k q' u' h' => Nat.le_trans this (h k q' u' h')
  · cases h2⟩
instance {g : G α} {f : α → G β} [hg : Word g] : Word (g >>= f) := word_bind hg
instance {g : G α} {f : α → G β} [hg : Word' g] [hf : ∀ a, Word (f a)] : Word (g >>= f) := word_bind' hg hf
instance {k : Kw} : Word' (G.optKw k) := ⟨fun m s n r v hr => by
  have := Weighed.inv (show V m (.bind (.opt (.leaf (.kw k))) _) s n _ from hr)
  simp only [Weighed.Inv] at this
  rcases this with ⟨q, u, i, j, h1, h2, rfl⟩ | ⟨e, h1, h2⟩
  · obtain ⟨rfl, e⟩ := Weighed.inv h2
    cases e
    have := Weighed.inv h1
    simp only [Weighed.Inv] at this
    rcases this with ⟨q, u, h3, h4⟩ | ⟨p, q, h3, h4⟩ | ⟨e, -, h3, h4⟩
    · cases h4
      exact .inr (word_kw.word _ _ _ _ _ h3)
    · cases h4
      exact .inl rfl
    · cases h4
  · cases h2⟩
instance : Word (G.alts ([] : List (G α))) := ⟨fun m s n r v hr => by
  obtain ⟨-, e⟩ := Weighed.inv hr
  cases e⟩
instance {g : G α} {gs : List (G α)} [hg : Word g] [hh : Word (G.alts gs)] : Word (G.alts (g :: gs)) := ⟨fun m s n r v hr => by
  have := Weighed.inv (show V m (.orElse g (G.alts gs)) s n _ from hr)
  simp only [Weighed.Inv] at this
  rcases this with ⟨q, u, h1, h2⟩ | ⟨p, q, i, j, h1, h2, rfl⟩ | ⟨e, -, h1, h2⟩
  · cases h2; exact hg.word _ _ _ _ _ h1
  · exact hh.word _ _ _ _ _ h2
  · cases h2⟩
instance {k : Kw} {a : α} : Word (G.kwAs k a) := by unfold G.kwAs; infer_instance
instance {f : α → β} {g : G α} [hg : Word g] : Word (G.variant f g) := by unfold G.variant; infer_instance
instance {f : α → Bool → β} {g : G α} [hg : Word g] : Word (G.mayBeNull f g) := word_bind hg

instance : Word G.longLongType := by unfold G.longLongType; infer_instance
instance : Word G.longType := by unfold G.longType; infer_instance
instance : Word G.shortType := by unfold G.shortType; infer_instance
instance : Word G.integerType := by unfold G.integerType; infer_instance
instance : Word G.floatType := by unfold G.floatType; infer_instance
instance : Word G.doubleType := by unfold G.doubleType; infer_instance
instance : Word G.floatingPointType := by unfold G.floatingPointType; infer_instance
instance {b : Builtin} : Word (G.builtin b) := by unfold G.builtin; infer_instance
instance : Word G.promiseType := by unfold G.promiseType; infer_instance
instance : Word G.sequenceType := by unfold G.sequenceType; infer_instance
instance : Word G.frozenArrayType := by unfold G.frozenArrayType; infer_instance
instance : Word G.recordType := word_bind (inferInstanceAs (Word (G.kw .record)))

/-- What an optional keyword does depends on the text only. -/
theorem optKw_v (k : Kw) (m : Nat) (s : Str) : ∃ q b, (q = s ∨ ∃ u, charLeaf _ (.kw k) s = .ok q u) ∧ q.length ≤ s.length ∧
    ∀ {β : Type} (f : Bool → G β) n x, V m (.bind (G.optKw k) f) s n x → ∃ j, n = visit m s + j ∧ V m (f b) q j x := by
  have key : ∀ {β : Type} (f : Bool → G β) n x, V m (.bind (G.optKw k) f) s n x →
      (∃ q u, charLeaf _ (.kw k) s = .ok q u ∧ ∃ j, n = visit m s + j ∧ V m (f true) q j x) ∨
      (∃ p j, charLeaf _ (.kw k) s = .err (.error p j)) ∧ ∃ j, n = visit m s + j ∧ V m (f false) s j x := fun f n x hr => by
    have := Weighed.inv hr
    simp only [Weighed.Inv] at this
    rcases this with ⟨q, u, i, j, h1, h2, rfl⟩ | ⟨e, h1, rfl⟩
    · have := Weighed.inv (show V m (.bind (.opt (.leaf (.kw k))) _) s i _ from h1)
      simp only [Weighed.Inv] at this
      rcases this with ⟨q', u', i', j', h3, h4, rfl⟩ | ⟨e, h3, h4⟩
      · obtain ⟨rfl, e⟩ := Weighed.inv h4
        cases e
        have := Weighed.inv h3
        simp only [Weighed.Inv] at this
        rcases this with ⟨q, u, h5, h6⟩ | ⟨p, q, h5, h6⟩ | ⟨e, -, h5, h6⟩
        · cases h6
          obtain ⟨rfl, e⟩ := Weighed.inv h5
          exact .inl ⟨_, _, e.symm, _, rfl, h2⟩
        · cases h6
          obtain ⟨rfl, e⟩ := Weighed.inv h5
          exact .inr ⟨⟨_, _, e.symm⟩, _, rfl, h2⟩
        · cases h6
      · cases h4
    · exact ((inferInstance : Sure (G.optKw k)).sure _ _ _ _ h1).elim
  cases hk : charLeaf _ (.kw k) s with
  | ok q u =>
    refine ⟨q, true, .inr ⟨u, rfl⟩, (leaf_suffix hk).length_le, fun f n x hr => ?_⟩
    rcases key f n x hr with ⟨q', u', h1, h2⟩ | ⟨⟨p, j, h1⟩, -⟩
    · rw [hk] at h1
      cases h1
      exact h2
    · rw [hk] at h1
      cases h1
  | err e =>
    refine ⟨s, false, .inl rfl, Nat.le_refl _, fun f n x hr => ?_⟩
    rcases key f n x hr with ⟨q', u', h1, h2⟩ | ⟨⟨p, j, h1⟩, h2⟩
    · rw [hk] at h1
      cases h1
    · exact h2
  | diverge =>
    have := charLeaf_fine _ (.kw k) s
    rw [hk] at this
    exact this.elim

theorem near_word {k : Kw} {m j : Nat} {s q : Str} (h : q = s ∨ ∃ u, charLeaf _ (.kw k) s = .ok q u) (hj : m < q.length → j = 0) :
    NearAt m s (visit m s + j) := fun h1 h2 => by
  rw [visit_zero h1, hj]
  rcases h with rfl | ⟨u, h⟩
  · exact h1
  · exact h2 _ _ _ h

instance (priority := low) {g : G α} [h : Here g] : Near g := ⟨fun m s n e hr h1 _ => h.here _ _ _ _ hr h1⟩
theorem near_optKw {k : Kw} {f : Bool → G β} (hf : ∀ b, Here (f b)) : Near (.bind (G.optKw k) f) := ⟨fun m s n e hr => by
  obtain ⟨q, b, h1, -, h2⟩ := optKw_v k m s
  obtain ⟨j, rfl, h3⟩ := h2 _ _ _ hr
  exact near_word h1 ((hf b).here _ _ _ _ h3)⟩
theorem near_bind {g : G α} {f : α → G β} (hg : Near g) (hf : ∀ a, Sure (f a)) : Near (.bind g f) := ⟨fun m s n e hr => by
  have := Weighed.inv hr
  simp only [Weighed.Inv] at this
  rcases this with ⟨r, v, i, j, h1, h2, rfl⟩ | ⟨e, h1, -⟩
  · exact ((hf v).sure _ _ _ _ h2).elim
  · exact hg.near _ _ _ _ h1⟩
theorem near_orElse {g h : G α} {st : Bool} (hs : Guarded true g st) (hh : Near h)
    (hg : ∀ m s n e i e', V m g s n (.err e) → V m h s i (.err e') → NearAt m s n) : Near (.orElse g h) := ⟨fun m s n e hr => by
  have := Weighed.inv hr
  simp only [Weighed.Inv] at this
  rcases this with ⟨r, v, h1, h2⟩ | ⟨p, k, i, j, h1, h2, rfl⟩ | ⟨e, h3, h1, h2⟩
  · cases h2
  · exact fun h3 h4 => by rw [hg _ _ _ _ _ _ h1 h2 h3 h4, hh.near _ _ _ _ h2 h3 h4]
  · obtain ⟨_, h4, -⟩ := h1.runs
    have h5 := runs_fine hs h4
    cases e with
    | error p k => exact (h3 p k rfl).elim
    | _ => exact h5.elim⟩
instance {g : G α} {gs : List (G α)} {st : Bool} [hs : Guarded true g st] [hg : Near g] [hh : Near (G.alts gs)] :
    Near (G.alts (g :: gs)) := near_orElse hs hh fun m s n e _ _ h _ => hg.near _ _ _ _ h
instance {f : α → β} {g : G α} [hg : Near g] : Near (G.variant f g) := near_bind hg fun _ => inferInstanceAs (Sure (pure _))
instance {f : α → Bool → β} {g : G α} [hg : Near g] : Near (G.mayBeNull f g) := near_bind hg fun _ => inferInstanceAs (Sure (_ >>= fun _ => _))

theorem optKw_optKw {k : Kw} {f f' : Bool → G α} (hf : ∀ b, Here (f b)) {m : Nat} {s : Str} {n : Nat} {e : Err Char} {i : Nat} {r : Str}
    {v : α} (h : V m (.bind (G.optKw k) f) s n (.err e)) (h' : V m (.bind (G.optKw k) f') s i (.ok r v)) (hm : m < r.length) :
    n = 0 := by
  obtain ⟨q, b, h1, h4, h2⟩ := optKw_v k m s
  obtain ⟨j, rfl, h3⟩ := h2 _ _ _ h
  obtain ⟨j', rfl, h5⟩ := h2 _ _ _ h'
  have := h5.suffix.length_le
  rw [visit_zero (by omega), (hf b).here _ _ _ _ h3 (by omega)]

theorem alts_last {g : G α} {s : Str} {n : Nat} {x : Res Char α} (h : V m (G.alts [g]) s n x) :
    (∃ e e', x = .err e ∧ V m g s n (.err e')) ∨ V m g s n x := by
  have := Weighed.inv (show V m (.orElse g .altEnd) s n _ from h)
  simp only [Weighed.Inv] at this
  rcases this with ⟨r, v, h1, rfl⟩ | ⟨p, k, i, j, h1, h2, rfl⟩ | ⟨e, -, h1, rfl⟩
  · exact .inr h1
  · obtain ⟨rfl, rfl⟩ := h2
    exact .inl ⟨_, _, rfl, h1⟩
  · exact .inr h1

/-! ## Numbers -/

instance : Near G.longType := near_optKw fun _ => inferInstanceAs (Here (_ >>= fun _ => _))
instance : Near G.shortType := near_optKw fun _ => inferInstanceAs (Here (_ >>= fun _ => _))
instance : Near G.floatType := near_optKw fun _ => inferInstanceAs (Here (_ >>= fun _ => _))
instance : Near G.doubleType := near_optKw fun _ => inferInstanceAs (Here (_ >>= fun _ => _))
instance : Near G.floatingPointType := by unfold G.floatingPointType; infer_instance

instance : Exact G.longLongType := by unfold G.longLongType; infer_instance
instance : Exact G.longType := by unfold G.longType; infer_instance
instance : Exact G.shortType := by unfold G.shortType; infer_instance
instance : Exact G.floatType := by unfold G.floatType; infer_instance
instance : Exact G.doubleType := by unfold G.doubleType; infer_instance

theorem exact_last {g : G α} (hg : Exact g) : Exact (G.alts [g]) := ⟨fun m s n r v hr => by
  rcases alts_last hr with ⟨_, _, h, -⟩ | h
  · cases h
  · exact hg.exact _ _ _ _ _ h⟩

instance : Exact G.floatingPointType :=
  exact_orElse inferInstance (exact_last inferInstance) fun m s n e i r v h1 h2 => by
    rcases alts_last h2 with ⟨_, _, h, -⟩ | h
    · cases h
    · exact optKw_optKw (fun _ => inferInstanceAs (Here (_ >>= fun _ => _))) h1 h

instance exact_long : Exact (G.alts [G.longType, G.shortType]) :=
  exact_orElse inferInstance (exact_last inferInstance) fun m s n e i r v h1 h2 => by
    rcases alts_last h2 with ⟨_, _, h, -⟩ | h
    · cases h
    · exact optKw_optKw (fun _ => inferInstanceAs (Here (_ >>= fun _ => _))) h1 h

/-- When the second `long` is missing, `long` or `short` comes before it. -/
theorem longLong_long {s : Str} {n : Nat} {e : Err Char} {i : Nat} {x : Res Char IntegerType}
    (h : V m G.longLongType s n (.err e)) (h' : V m (G.alts [G.longType, G.shortType]) s i x) :
    (∃ q u, (q = s ∨ ∃ u, charLeaf _ (.kw .unsigned) s = .ok q u) ∧ q.length ≤ s.length ∧ (m < q.length → n = 0) ∧
      ∀ r v, x = .ok r v → r.length ≤ q.length ∧ u = ()) ∨ ∃ r v, x = .ok r v ∧ (m < r.length → n = 0) := by
  obtain ⟨q, b, h1, h4, h2⟩ := optKw_v .unsigned m s
  obtain ⟨j, rfl, h3⟩ := h2 _ _ _ h
  have := Weighed.inv (show V m (.bind (G.kw .long) _) q j _ from h3)
  simp only [Weighed.Inv] at this
  rcases this with ⟨r, v, i1, j1, h5, h6, rfl⟩ | ⟨e, h5, h6⟩
  · refine .inr ?_
    have h7 : j1 = visit m r := by
      have := Weighed.inv (show V m (.bind (G.kw .long) _) r j1 _ from h6)
      simp only [Weighed.Inv] at this
      rcases this with ⟨r', v', i2, j2, h7, h8, rfl⟩ | ⟨e, h7, h8⟩
      · obtain ⟨-, h9⟩ := Weighed.inv (show V m (.ret _) _ _ _ from h8)
        cases h9
      · exact (Weighed.inv (show V m (.leaf (.kw .long)) r j1 _ from h7)).1
    have h8 := Weighed.inv (show V m (.orElse G.longType (G.alts [G.shortType])) s i x from h')
    simp only [Weighed.Inv] at h8
    have h9 : ∀ n x, V m G.longType s n x → ∃ v, x = .ok r v := fun n x h => by
      obtain ⟨j, rfl, h3⟩ := h2 _ _ _ h
      have := Weighed.inv (show V m (.bind (G.kw .long) _) q j _ from h3)
      simp only [Weighed.Inv] at this
      rcases this with ⟨r', v', i2, j2, h10, h11, rfl⟩ | ⟨e, h10, h11⟩
      · obtain ⟨-, h12⟩ := h5.det h10
        cases h12
        obtain ⟨-, h13⟩ := Weighed.inv (show V m (.ret _) _ _ _ from h11)
        exact ⟨_, h13⟩
      · have := (h5.det h10).2
        cases this
    obtain ⟨h10, h11⟩ := Weighed.inv (show V m (.leaf (.kw .long)) q i1 _ from h5)
    have h12 := leaf_lt h11.symm
    rcases h8 with ⟨r', v', h8, rfl⟩ | ⟨p, k, i2, j2, h8, -, -⟩ | ⟨e, -, h8, -⟩
    · obtain ⟨_, h13⟩ := h9 _ _ h8
      cases h13
      exact ⟨_, _, rfl, fun hm => by rw [visit_zero (s := s) (by omega), h10, visit_zero (s := q) (by omega), h7, visit_zero hm]⟩
    · obtain ⟨_, h13⟩ := h9 _ _ h8
      cases h13
    · obtain ⟨_, h13⟩ := h9 _ _ h8
      cases h13
  · have h7 := (Weighed.inv (show V m (.leaf (.kw .long)) q j _ from h5)).1
    refine .inl ⟨q, (), h1, h4, fun hm => by rw [visit_zero (s := s) (by omega), h7, visit_zero hm], fun r v e => ?_⟩
    subst e
    refine ⟨?_, rfl⟩
    have h8 := Weighed.inv (show V m (.orElse G.longType (G.alts [G.shortType])) s i _ from h')
    simp only [Weighed.Inv] at h8
    rcases h8 with ⟨r', v', h8, e⟩ | ⟨p, k, i2, j2, h8, h9, -⟩ | ⟨e, -, h8, h9⟩
    · cases e
      obtain ⟨j, rfl, h3⟩ := h2 _ _ _ h8
      exact h3.suffix.length_le
    · rcases alts_last h9 with ⟨_, _, h, -⟩ | h
      · cases h
      · obtain ⟨j, rfl, h3⟩ := h2 _ _ _ h
        exact h3.suffix.length_le
    · cases h9

instance : Near G.integerType :=
  near_orElse (st := true) inferInstance (inferInstance : Near (G.alts [G.longType, G.shortType])) fun m s n e i e' h1 h2 => by
    rcases longLong_long h1 h2 with ⟨q, u, h3, h4, h5, -⟩ | ⟨r, v, h3, -⟩
    · refine fun h6 h7 => h5 ?_
      rcases h3 with rfl | ⟨u, h⟩
      · exact h6
      · exact h7 _ _ _ h
    · cases h3

instance : Exact G.integerType :=
  exact_orElse inferInstance exact_long fun m s n e i r v h1 h2 => by
    rcases longLong_long h1 h2 with ⟨q, u, h3, h4, h5, h6⟩ | ⟨r, v, h3, h4⟩
    · intro h7
      have := (h6 _ _ rfl).1
      exact h5 (by omega)
    · cases h3
      exact h4

/-- A first alternative that does not look beyond the first word. -/
theorem exact_near {g : G α} {gs : List (G α)} (hg : Exact g) (hn : Near g) (hw : Word (G.alts gs)) (hs : Exact (G.alts gs)) :
    Exact (G.alts (g :: gs)) :=
  exact_orElse hg hs fun m s n e i r v h1 h2 h => hn.near _ _ _ _ h1 (by have := h2.suffix.length_le; omega)
    fun k q u h' => by have := hw.word _ _ _ _ _ h2 k q u h'; omega
instance (priority := low) {g : G α} {gs : List (G α)} [hg : Exact g] [hn : Near g] [hw : Word (G.alts gs)] [hs : Exact (G.alts gs)] :
    Exact (G.alts (g :: gs)) := exact_near hg hn hw hs
instance {b : Builtin} : Exact (G.builtin b) := by unfold G.builtin; infer_instance
instance {b : Builtin} : Here (G.builtin b) := by unfold G.builtin; infer_instance
instance : Exact G.constType := by unfold G.constType; infer_instance

instance [∀ k, Leafy A (.kw k)] : Meas A G.longLongType := by unfold G.longLongType; infer_instance
instance [∀ k, Leafy A (.kw k)] : Meas A G.longType := by unfold G.longType; infer_instance
instance [∀ k, Leafy A (.kw k)] : Meas A G.shortType := by unfold G.shortType; infer_instance
instance [∀ k, Leafy A (.kw k)] : Meas A G.integerType := by unfold G.integerType; infer_instance
instance [∀ k, Leafy A (.kw k)] : Meas A G.floatType := by unfold G.floatType; infer_instance
instance [∀ k, Leafy A (.kw k)] : Meas A G.doubleType := by unfold G.doubleType; infer_instance
instance [∀ k, Leafy A (.kw k)] : Meas A G.floatingPointType := by unfold G.floatingPointType; infer_instance
instance [∀ k, Leafy A (.kw k)] [Leafy A (.punct .qMark)] {b : Builtin} : Meas A (G.builtin b) := by unfold G.builtin; infer_instance
instance [Usual A] : Meas A G.constType := by unfold G.constType; infer_instance

instance [Linear.Sign c] : Blunt c G.longLongType := by unfold G.longLongType; infer_instance
instance [Linear.Sign c] : Blunt c G.longType := by unfold G.longType; infer_instance
instance [Linear.Sign c] : Blunt c G.shortType := by unfold G.shortType; infer_instance
instance [Linear.Sign c] : Blunt c G.integerType := by unfold G.integerType; infer_instance
instance [Linear.Sign c] : Blunt c G.floatType := by unfold G.floatType; infer_instance
instance [Linear.Sign c] : Blunt c G.doubleType := by unfold G.doubleType; infer_instance
instance [Linear.Sign c] : Blunt c G.floatingPointType := by unfold G.floatingPointType; infer_instance
instance [Linear.Sign c] {b : Builtin} : Blunt c (G.builtin b) := by unfold G.builtin; infer_instance
instance [Linear.Sign c] : Blunt c G.promiseType := by unfold G.promiseType; infer_instance
instance [Linear.Sign c] : Blunt c G.sequenceType := by unfold G.sequenceType; infer_instance
instance [Linear.Sign c] : Blunt c G.frozenArrayType := by unfold G.frozenArrayType; infer_instance
instance [Linear.Sign c] : Blunt c G.recordType := blunt_bind (inferInstanceAs (Blunt c (G.kw .record)))
instance [Linear.Sign c] : Blunt c G.nonAnyType := by unfold G.nonAnyType; infer_instance
instance [Linear.Sign c] : Blunt c G.singleType := by unfold G.singleType; infer_instance
instance [Refuse c (.punct .openParen)] : Blunt c G.unionType := by unfold G.unionType; infer_instance
instance [Linear.Sign c] [Refuse c (.punct .openParen)] : Blunt c G.type := by unfold G.type; infer_instance
instance [Linear.Sign c] [Refuse c (.punct .openBracket)] : Skips c G.attrs := by unfold G.attrs G.extAttrList; infer_instance

/-! ## Words with `<` -/

/-- The parser fails at once, or after the keyword, unless the text begins with the keyword and a `<`. -/
class Deep (w : Kw) (g : G α) : Prop where
  deep : ∀ m s n x, V m g s n x → Generic w s ∨ NearAt m s n ∧ ∃ e, x = .err e

theorem deep_generics {g : G α} {s q : Str} {u : Unit} {n : Nat} {x : Res Char α} (h : charLeaf _ (.kw w) s = .ok q u)
    (hr : V m (G.generics g) q n x) : Generic w s ∨ n = visit m q ∧ ∃ e, x = .err e := by
  have := Weighed.inv (show V m (.bind (G.punct .lessThan) _) _ _ _ from hr)
  simp only [Weighed.Inv] at this
  rcases this with ⟨q'', u'', i'', j'', h5, h6, -⟩ | ⟨e, h5, rfl⟩
  · obtain ⟨rfl, e''⟩ := punct_v h5
    exact .inl ⟨_, _, h, leaf_at rfl e''.symm⟩
  · obtain ⟨rfl, e''⟩ := punct_v h5
    exact .inr ⟨rfl, e, rfl⟩

theorem deep_kw' {g : G α} {f : α → G β} : Deep w (.bind (G.kw w) fun _ => .bind (G.generics g) f) := ⟨fun m s n x hr => by
  have := Weighed.inv hr
  simp only [Weighed.Inv] at this
  rcases this with ⟨q, u, i, j, h1, h2, rfl⟩ | ⟨e, h1, rfl⟩
  · obtain ⟨rfl, e'⟩ := Weighed.inv (show V m (.leaf (.kw w)) s i _ from h1)
    have := Weighed.inv h2
    simp only [Weighed.Inv] at this
    rcases this with ⟨q', u', i', j', h3, h4, rfl⟩ | ⟨e, h3, rfl⟩
    · rcases deep_generics e'.symm h3 with h | ⟨-, e, h⟩
      · exact .inl h
      · cases h
    · refine (deep_generics e'.symm h3).imp_right fun h => ⟨fun h4 h5 => ?_, e, rfl⟩
      rw [h.1, visit_zero h4, visit_zero (h5 _ _ _ e'.symm)]
  · obtain ⟨rfl, e'⟩ := Weighed.inv (show V m (.leaf (.kw w)) s n _ from h1)
    exact .inr ⟨fun h _ => visit_zero h, e, rfl⟩⟩

theorem deep_kw {g : G α} : Deep w (.bind (G.kw w) fun _ => G.generics g) := ⟨fun m s n x hr => by
  have := Weighed.inv hr
  simp only [Weighed.Inv] at this
  rcases this with ⟨q, u, i, j, h1, h2, rfl⟩ | ⟨e, h1, rfl⟩
  · obtain ⟨rfl, e'⟩ := Weighed.inv (show V m (.leaf (.kw w)) s i _ from h1)
    refine (deep_generics e'.symm h2).imp_right fun h => ⟨fun h4 h5 => ?_, h.2⟩
    rw [h.1, visit_zero h4, visit_zero (h5 _ _ _ e'.symm)]
  · obtain ⟨rfl, e'⟩ := Weighed.inv (show V m (.leaf (.kw w)) s n _ from h1)
    exact .inr ⟨fun h _ => visit_zero h, e, rfl⟩⟩

instance : Deep .promise G.promiseType := deep_kw'
instance : Deep .sequence G.sequenceType := deep_kw
instance : Deep .frozenArray G.frozenArrayType := deep_kw
instance : Deep .record G.recordType := deep_kw
instance {f : α → Bool → β} {g : G α} [hg : Deep w g] : Deep w (G.mayBeNull f g) := ⟨fun m s n x hr => by
  have := Weighed.inv (show V m (.bind g _) s n _ from hr)
  simp only [Weighed.Inv] at this
  rcases this with ⟨q, u, i, j, h1, h2, rfl⟩ | ⟨e, h1, rfl⟩
  · rcases hg.deep _ _ _ _ h1 with h | ⟨-, e, h⟩
    · exact .inl h
    · cases h
  · exact (hg.deep _ _ _ _ h1).imp_right fun h => ⟨h.1, e, rfl⟩⟩

/-- A first alternative that does not look beyond the first word. -/
theorem lin_near_or {g h : G α} {X : List Char} {k k' : Nat} (hg : Lin A l g X k) (hn : Near g) (hw : Word h)
    (hh : Lin A l h X k') : Lin A l (.orElse g h) X (k + k') :=
  lin_orElse hg hh fun d a ha hc m s hd n e i r v h1 h2 => .inl fun h =>
    hn.near _ _ _ _ h1 (by have := h2.suffix.length_le; omega) fun k q u h' => by
      have := hw.word _ _ _ _ _ h2 k q u h'; omega

theorem lin_word_or {g h : G α} {k k' : Nat} (w : Kw) (hd : Deep w g)
    (hh : Sticky w h) (hs : Guarded true h true) (hw : Word h) (hg : Lin A l g [] k) (hl : Lin A l h ['<'] k') :
    Lin A l (.orElse g h) ['<'] (k + k') :=
  lin_orElse (hg.weaken fun _ h => nomatch h) hl fun d a ha hc m s _ n e i r v h1 h2 => by
    rcases hd.deep _ _ _ _ h1 with h3 | h3
    · refine .inr ⟨'<', by simp, ?_⟩
      obtain ⟨_, h2, -⟩ := h2.runs
      rcases hh.sticky _ _ _ _ h3 h2 with h4 | rfl
      · exact h4
      · have := (runs_fine hs h2).2 rfl
        omega
    · exact .inl fun h => h3.1 (by have := h2.suffix.length_le; omega) fun k q u h' => by
        have := hw.word _ _ _ _ _ h2 k q u h'; omega

/-! ## Types -/

section

theorem lin_of {g : G α} {k : Nat} [hg : Brief g k] [hm : Meas A g] [he : Exact g] : Lin A l g [] k :=
  lin_brief hg hm he
variable [Usual A]

instance {p : Punct} [Leafy A (.punct p)] : Lin A l (G.optPunct p) [] 1 := lin_of
instance {k : Kw} : Lin A l (G.optKw k) [] 1 := lin_of
instance {g : G α} {j w k : Nat} {st : Bool} {f : α → Bool → β} [Guarded true g st] [Tame l g j w 6] [Lin A l g [] k] :
    Lin A l (G.mayBeNull f g) [] (k + 1) := by unfold G.mayBeNull; infer_instance

omit [Usual A] in
theorem lin_last {g : G α} {X : List Char} {k : Nat} (hg : Lin A l g X k) : Lin A l (G.alts [g]) X k :=
  (lin_orElse hg (lin_altEnd.weaken fun _ h => nomatch h) fun d a ha hc m s hd n e i r v h1 h2 => by
      obtain ⟨-, h⟩ := Weighed.inv h2
      cases h).mono (Nat.le_refl _)
omit [Usual A] in
theorem lin_cons {g : G α} {gs : List (G α)} {X : List Char} {k k' : Nat} [hb : Brief g k]
    [hm : Meas A g] [he : Exact g] [hH : Here g] (hh : Lin A l (G.alts gs) X k') : Lin A l (G.alts (g :: gs)) X (k + k') :=
  lin_brief_or hb hm he hH hh
omit [Usual A] in
theorem lin_near {g : G α} {gs : List (G α)} {X : List Char} {k k' : Nat} [hb : Brief g k]
    [hm : Meas A g] [he : Exact g] [hn : Near g] [hw : Word (G.alts gs)] (hh : Lin A l (G.alts gs) X k') :
    Lin A l (G.alts (g :: gs)) X (k + k') :=
  lin_near_or (lin_of.weaken fun _ h => nomatch h) hn hw hh
theorem lin_generics {g : G α} {w k : Nat} {st : Bool} [hs : Guarded true g st] [ht : Tame (l + 1) g (l + 1) w 6]
    [hg : Lin A (l + 1) g ['<'] k] : Lin A l (G.generics g) [] (1 + (k + 1)) := by unfold G.generics; infer_instance
instance {g : G Ty} {X : List Char} {k : Nat} [hg : Lin A l g X k] : Lin A l (G.returnTypeOf g) X (1 + k) :=
  lin_cons (lin_last (lin_pure hg))
instance : Lin A (l + 1) G.recordKeyType ['<'] 4 := by
  unfold G.recordKeyType
  have : Lin A (l + 1) (G.variant RecordKeyType.nonAny (G.call .nonAny)) ['<'] 1 := inferInstance
  exact Lin.mono (lin_cons (lin_cons (lin_cons (lin_last this)))) (by decide)
instance : Lin A l G.promiseType [] 5 := by
  have := lin_generics (A := A) (l := l) (g := G.returnTypeOf (.call .type))
  unfold G.promiseType
  infer_instance
instance : Lin A l G.sequenceType [] 4 := by
  have := lin_generics (A := A) (l := l) (g := G.call .type)
  unfold G.sequenceType
  infer_instance
instance : Lin A l G.frozenArrayType [] 4 := by
  have := lin_generics (A := A) (l := l) (g := G.call .type)
  unfold G.frozenArrayType
  infer_instance
instance : Lin A l G.recordType [] 9 := by
  have := lin_generics (A := A) (l := l) (g := do
    let key ← G.recordKeyType
    G.punct .comma
    let value ← G.call .type
    pure (key, value))
  exact lin_bind (g := G.kw .record) (k := 1) (st := true) inferInstance inferInstance inferInstance (fun _ => this) (fun _ => inferInstance)

omit [Usual A] in
theorem lin_word {g : G α} {gs : List (G α)} {k k' : Nat} (w : Kw) [hd : Deep w g] [hh : Sticky w (G.alts gs)]
    [hs : Guarded true (G.alts gs) true] [hw : Word (G.alts gs)] [hg : Lin A l g [] k] (hl : Lin A l (G.alts gs) ['<'] k') :
    Lin A l (G.alts (g :: gs)) ['<'] (k + k') := lin_word_or w hd hh hs hw hg hl

instance : Lin A l G.nonAnyType ['<'] 94 := by
  unfold G.nonAnyType
  refine Lin.mono (lin_word .promise <| lin_near <| lin_near <| lin_cons <| lin_cons <| lin_cons <| lin_cons <| lin_cons <| lin_cons <|
    lin_word .sequence <| lin_cons <| lin_cons <| lin_cons <| lin_cons <| lin_cons <| lin_cons <| lin_cons <| lin_cons <|
    lin_cons <| lin_cons <| lin_cons <| lin_cons <| lin_cons <| lin_cons <| lin_cons <| lin_cons <|
    lin_word .frozenArray <| lin_word .record <| lin_last <| lin_of.weaken (fun _ h => nomatch h)) (by decide)
omit [Usual A] in
theorem lin_alt {c : Char} {g g' : G α} {gs : List (G α)} {X : List Char} {k k' : Nat} (hg : Lin A l g X k) [hb : Blunt c g]
    (hh : Lin A l (G.alts (g' :: gs)) X k') (ho : Opens c (G.alts (g' :: gs))) : Lin A l (G.alts (g :: g' :: gs)) X (k + k') :=
  lin_open_or hg hb hh ho

theorem opens_last {c : Char} {g : G α} [h : Opens c g] : Opens c (G.alts [g]) := ⟨fun m s n x hr => by
  rcases alts_last hr with ⟨e, e', rfl, h1⟩ | h1
  · exact (h.opens _ _ _ _ h1).imp_right fun h => ⟨h.1, _, rfl⟩
  · exact h.opens _ _ _ _ h1⟩

instance {N : NT α} [h : Blunt c (G.body N)] : Blunt c (.call N) := ⟨fun m s n x hs hr => h.blunt _ _ _ _ hs (Weighed.inv hr)⟩
instance [Linear.Sign c] [Refuse c (.punct .openBracket)] : Blunt c G.attributedNonAnyType := by unfold G.attributedNonAnyType; infer_instance
instance [Linear.Sign c] [Refuse c (.punct .openBracket)] [Refuse c (.punct .openParen)] : Blunt c G.unionMemberType := by
  unfold G.unionMemberType; infer_instance
instance [Linear.Sign c] [Refuse c (.punct .openBracket)] [Refuse c (.punct .openParen)] : Blunt c (.call .unionMember) := by
  have : Blunt c (G.body .unionMember) := inferInstanceAs (Blunt c G.unionMemberType)
  infer_instance

instance : Lin A l G.unionType [] 7 :=
  Lin.mono (lin_list (z := ')') rfl inferInstance inferInstance (j := l + 1) inferInstance inferInstance inferInstance inferInstance
    inferInstance inferInstance inferInstance inferInstance inferInstance inferInstance
    (inferInstance : Blunt ')' (.call .unionMember)) inferInstance (by decide) inferInstance) (by decide)
instance : Opens '(' G.unionType := by unfold G.unionType; infer_instance
instance : Lin A l G.singleType ['<'] 95 := by
  unfold G.singleType
  exact Lin.mono (lin_cons (lin_last (lin_pure (inferInstance : Lin A l G.nonAnyType ['<'] 94)))) (by decide)
instance : Lin A l G.type ['<'] 103 := by
  unfold G.type
  refine Lin.mono (lin_alt (c := '(') (lin_pure (inferInstance : Lin A l G.singleType ['<'] 95)) (lin_last (Lin.weaken (X := []) (k := 8) ?_ fun _ h => nomatch h)) opens_last) (by decide)
  infer_instance
end
end Verif.Visits
