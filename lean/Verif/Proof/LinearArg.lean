import Verif.Proof.LinearAttr

/-! # Costs of arguments -/

namespace Verif.Linear
open Nom Spec

set_option synthInstance.maxSize 2000
set_option synthInstance.maxHeartbeats 400000

variable {α β : Type} {A : Str → Nat} {l : Nat} {c : Char} {w : Kw}

/-- An option whose failure, if it is not at the first character, makes the rest fail. -/
theorem lin_bind_opt {g : G α} {f : Option α → G β} {m w : Nat} {st : Bool} {Y : List Char} {k k' : Nat}
    (hs : Guarded true g st) (ht : Tame l g m w 6) (ht' : Tame l (.opt g) m w 6) (ho : Opens c g)
    (hg : Lin A l g [] k) (hf : ∀ a, Lin A m (f a) Y k')
    (hb : ∀ s n e i r v, At c s → Runs charLeaf g s n (.err e) → ¬ Runs charLeaf (f none) s i (.ok r v)) :
    Lin A l (.bind (.opt g) f) Y (k + 1 + k') := ⟨fun d a ha hc s hd n x hr => by
  have h1 := (lin_opt hg ho).lin d a ha hc s hd
  have := Runs.inv hr
  simp only [Runs.Inv] at this
  rcases this with ⟨r, v, i, j, h2, h3, rfl⟩ | ⟨e, h2, rfl⟩
  · have h4 := ht'.effect' body_tame (st := false) (.opt hs) h2
    obtain ⟨h5, h6⟩ := h1 _ _ h2
    obtain ⟨h7, h8, h9⟩ := h6 _ _ rfl
    obtain ⟨h10, h11⟩ := (hf v).lin d a ha hc r (by omega) _ _ h3
    have h12 := h8.length_le
    have h13 : k' * a * (A r + 1) ≤ k' * a * (A s + 1) := Nat.mul_le_mul_left _ (by omega)
    refine ⟨?_, fun q u e => ?_⟩
    · rw [Nat.add_mul, Nat.add_mul]
      omega
    · subst e
      obtain ⟨h13, h14, h15⟩ := h11 _ _ rfl
      refine ⟨by omega, h14.trans h8, ?_⟩
      have h16 := arith (k := k + 1) (k' := k') (a := a) h14.length_le h12
      have h17 : i ≤ (k + 1) * a * (s.length - r.length + 1) := by
        have := Runs.inv h2
        simp only [Runs.Inv] at this
        rcases this with ⟨r', v', h18, h19⟩ | ⟨p, t, h18, h19⟩ | ⟨e, -, h18, h19⟩
        · cases h19
          obtain ⟨-, -, h20⟩ := (hg.lin d a ha hc s hd _ _ h18).ok _ _ rfl
          rcases h20 with h20 | ⟨_, h20, -⟩
          · exact Nat.le_trans h20 (Nat.mul_le_mul_right _ (Nat.mul_le_mul_right _ (by omega)))
          · cases h20
        · cases h19
          rcases ho.opens _ _ _ h18 with h20 | ⟨h20, -⟩
          · exact (hb _ _ _ _ _ _ h20 h18 h3).elim
          · exact Nat.le_trans h20 (Nat.mul_pos (Nat.mul_pos (by omega) ha) (by omega))
        · cases h19
      exact h15.imp_left fun h15 => by omega
  · exact ⟨Nat.le_trans (h1 _ _ h2).total (Nat.mul_le_mul_right _ (Nat.mul_le_mul_right _ (by omega))), fun _ _ e => by cases e⟩⟩

instance : Brief G.integerLit 3 := by unfold G.integerLit; infer_instance
instance : Brief G.floatLit 4 := by unfold G.floatLit; infer_instance
instance : Brief G.booleanLit 2 := by unfold G.booleanLit; infer_instance
instance : Brief G.emptyArrayLit 2 := by unfold G.emptyArrayLit; infer_instance
instance : Brief G.emptyDictionaryLit 2 := by unfold G.emptyDictionaryLit; infer_instance
instance : Brief G.defaultValue 15 := by unfold G.defaultValue; infer_instance
instance : Brief G.default 16 := by unfold G.default; infer_instance
instance : Brief G.constValue 10 := by unfold G.constValue; infer_instance

section
variable [Usual A]
instance : Meas A G.integerLit := by unfold G.integerLit; infer_instance
instance : Meas A G.floatLit := by unfold G.floatLit; infer_instance
instance : Meas A G.booleanLit := by unfold G.booleanLit; infer_instance
instance : Meas A G.emptyArrayLit := by unfold G.emptyArrayLit; infer_instance
instance : Meas A G.emptyDictionaryLit := by unfold G.emptyDictionaryLit; infer_instance
instance : Meas A G.defaultValue := by unfold G.defaultValue; infer_instance
instance : Meas A G.default := by unfold G.default; infer_instance
instance : Meas A G.constValue := by unfold G.constValue; infer_instance
instance {b : Bool} {f : Option (Option DefaultValue) → Option DefaultValue} : Lin A l (G.variant f (G.cond b (.opt G.default))) [] 16 :=
  lin_of
instance : Lin A l G.variadicArgument [] 979 := by unfold G.variadicArgument; infer_instance

/-- What follows the attributes of a single argument. -/
def singleRest (attributes : Attrs) : G Argument := do
  let optional ← G.optKw .optional
  let type_ ← G.attributedType
  let identifier ← G.ident
  let default ← G.variant (fun d => d.getD none) (G.cond optional (.opt G.default))
  pure (.single attributes optional type_ identifier default)

instance {as : Attrs} : Lin A l (singleRest as) [] 995 := by unfold singleRest; infer_instance

omit [Usual A] in
theorem attrs_again {s : Str} {n i : Nat} {e : Err Char} {r : Str} {v : Attrs} (he : Runs charLeaf G.extAttrList s n (.err e))
    (hr : Runs charLeaf G.attrs s i (.ok r v)) : r = s := by
  have := Runs.inv (show Runs charLeaf (.opt G.extAttrList) s i _ from hr)
  simp only [Runs.Inv] at this
  rcases this with ⟨r', v', h18, h19⟩ | ⟨p, t, h18, h19⟩ | ⟨e, -, h18, h19⟩
  · have := (Verif.Runs.det he _ _ h18).2
    cases this
  · cases h19
    rfl
  · cases h19

instance : Lin A l G.singleArgument [] 1754 := by
  refine lin_bind_opt (c := '[') (g := G.extAttrList) (f := singleRest) (k := 758) (k' := 995) (st := true) inferInstance
    inferInstance inferInstance inferInstance inferInstance (fun a => inferInstance) fun s n e i r v hs he hr => ?_
  obtain ⟨q, u, i1, j1, h1, h2, -⟩ := bind_ok hr
  have h3 : q = s := by
    rcases (inferInstance : Skips '[' (G.optKw .optional) 1).skips _ _ _ hs h1 with ⟨-, ⟨e, h⟩ | ⟨v, h⟩⟩
    · cases h
    · cases h; rfl
  subst h3
  obtain ⟨q', u', i2, j2, h4, h5, -⟩ := bind_ok h2
  obtain ⟨q'', u'', i3, j3, h6, h7, -⟩ := bind_ok h4
  obtain rfl := attrs_again he h6
  exact stop_of '[' hs _ (show Runs charLeaf (G.type >>= _) _ _ _ from h7)
end

/-! ## What a text that begins with a keyword can be -/

/-- The parser does not accept texts that begin with the keyword. -/
class Never (w : Kw) (g : G α) : Prop where
  never : ∀ s q u n r v, charLeaf _ (.kw w) s = .ok q u → ¬ Runs charLeaf g s n (.ok r v)

/-- On texts that begin with the keyword, the parser consumes nothing if it accepts. -/
class Halts (w : Kw) (g : G α) : Prop where
  halts : ∀ s q u n r v, charLeaf _ (.kw w) s = .ok q u → Runs charLeaf g s n (.ok r v) → r = s

/-- On texts that begin with the keyword, the parser consumes the keyword if it accepts, and perhaps a question mark. -/
class Reads (w : Kw) (g : G α) : Prop where
  reads : ∀ s q u n r v, charLeaf _ (.kw w) s = .ok q u → Runs charLeaf g s n (.ok r v) → r = q ∨ At '?' q

instance {g : G α} {f : α → G β} [h : Never w g] : Never w (g >>= f) := ⟨fun s q u n r v hs hr => by
  obtain ⟨q, u, i, j, h1, -, -⟩ := bind_ok hr
  exact h.never _ _ _ _ _ _ hs h1⟩
instance {g : G α} {f : α → G β} [h : Halts w g] [hf : ∀ a, Never w (f a)] : Never w (g >>= f) := ⟨fun s q u n r v hs hr => by
  obtain ⟨q', u', i, j, h1, h2, -⟩ := bind_ok hr
  obtain rfl := h.halts _ _ _ _ _ _ hs h1
  exact (hf _).never _ _ _ _ _ _ hs h2⟩
instance {g : G α} {f : α → β} [h : Halts w g] : Halts w (g >>= fun a => pure (f a)) := ⟨fun s q u n r v hs hr => by
  obtain ⟨q', u', i, j, h1, h2, -⟩ := bind_ok hr
  obtain rfl := h.halts _ _ _ _ _ _ hs h1
  exact ret_ok h2⟩
instance {g : G α} [h : Never w g] : Halts w (.opt g) := ⟨fun s q u n r v hs hr => by
  have := Runs.inv hr
  simp only [Runs.Inv] at this
  rcases this with ⟨r', v', h18, h19⟩ | ⟨p, t, h18, h19⟩ | ⟨e, -, h18, h19⟩
  · exact (h.never _ _ _ _ _ _ hs h18).elim
  · cases h19; rfl
  · cases h19⟩
theorem never_kw {k : Kw} (h : w.text ≠ k.text) : Never w (G.kw k) := ⟨fun s q u n r v hs hr => by
  obtain ⟨-, e⟩ := kw_runs hr
  exact h (kw_kw hs e.symm).1⟩
instance {g : G α} : Never w (G.parenthesized g) := ⟨fun s q u n r v hs hr => by
  obtain ⟨q, u, i, j, h1, -, -⟩ := bind_ok hr
  obtain ⟨-, e⟩ := punct_runs h1
  exact Refuse.not_ok (leaf_at (z := '(') rfl e.symm) hs⟩
instance : Never w (G.alts ([] : List (G α))) := ⟨fun s q u n r v hs hr => by
  obtain ⟨-, h⟩ := Runs.inv hr
  cases h⟩
instance {g : G α} {gs : List (G α)} [h : Never w g] [h' : Never w (G.alts gs)] : Never w (G.alts (g :: gs)) :=
  ⟨fun s q u n r v hs hr => by
  rcases or_ok hr with ⟨m, h1⟩ | ⟨m, h1⟩
  · exact h.never _ _ _ _ _ _ hs h1
  · exact h'.never _ _ _ _ _ _ hs h1⟩
instance {g : G α} {f : α → β} [h : Never w g] : Never w (G.variant f g) := by unfold G.variant; infer_instance
instance {g : G α} {f : α → Bool → β} [h : Never w g] : Never w (G.mayBeNull f g) := by unfold G.mayBeNull; infer_instance
instance {k : Kw} {a : α} [h : Never w (G.kw k)] : Never w (G.kwAs k a) := by unfold G.kwAs; infer_instance
instance {k : Kw} [h : Never w (G.kw k)] : Halts w (G.optKw k) := by unfold G.optKw; infer_instance

instance (priority := low) {g : G α} [h : Never w g] : Reads w g := ⟨fun s q u n r v hs hr => (h.never _ _ _ _ _ _ hs hr).elim⟩
instance {g : G α} {f : α → β} [h : Reads w g] : Reads w (G.variant f g) := ⟨fun s q u n r v hs hr => by
  obtain ⟨q, u, i, j, h1, h2, -⟩ := bind_ok hr
  rw [ret_ok h2]
  exact h.reads _ _ _ _ _ _ hs h1⟩
instance : Reads w (G.alts ([] : List (G α))) := inferInstance
instance {g : G α} {gs : List (G α)} [h : Reads w g] [h' : Reads w (G.alts gs)] : Reads w (G.alts (g :: gs)) :=
  ⟨fun s q u n r v hs hr => by
  rcases or_ok hr with ⟨m, h1⟩ | ⟨m, h1⟩
  · exact h.reads _ _ _ _ _ _ hs h1
  · exact h'.reads _ _ _ _ _ _ hs h1⟩
theorem opt_punct_ok {p : Punct} {z : Char} (hp : p.text.head? = some z) {s r : Str} {n : Nat} {b : Bool}
    (h : Runs charLeaf (G.optPunct p) s n (.ok r b)) : r = s ∨ At z s := by
  obtain ⟨q', u', i, j, h1, h2, -⟩ := bind_ok h
  rw [ret_ok h2]
  have := Runs.inv h1
  simp only [Runs.Inv] at this
  rcases this with ⟨r', v', h18, h19⟩ | ⟨p, t, h18, h19⟩ | ⟨e, -, h18, h19⟩
  · obtain ⟨-, e⟩ := punct_runs h18
    exact .inr (leaf_at hp e.symm)
  · cases h19; exact .inl rfl
  · cases h19
instance {f : Str → Bool → β} : Reads w (G.mayBeNull f G.ident) := ⟨fun s q u n r v hs hr => by
  obtain ⟨q, u, i, j, h1, h2, -⟩ := bind_ok hr
  obtain ⟨-, e⟩ := ident_runs h1
  obtain rfl := kw_ident hs e.symm
  obtain ⟨q', u', i', j', h3, h4, -⟩ := bind_ok h2
  rw [ret_ok h4]
  exact opt_punct_ok rfl h3⟩

section
instance {b : Builtin} : Never .optional (G.kw (G.builtinKw b)) := never_kw (by cases b <;> decide)
instance : Never .optional (G.kw .promise) := never_kw (by decide)
instance : Never .optional (G.kw .sequence) := never_kw (by decide)
instance : Never .optional (G.kw .frozenArray) := never_kw (by decide)
instance : Never .optional (G.kw .record) := never_kw (by decide)
instance : Never .optional (G.kw .unsigned) := never_kw (by decide)
instance : Never .optional (G.kw .unrestricted) := never_kw (by decide)
instance : Never .optional (G.kw .long) := never_kw (by decide)
instance : Never .optional (G.kw .short) := never_kw (by decide)
instance : Never .optional (G.kw .float) := never_kw (by decide)
instance : Never .optional (G.kw .double) := never_kw (by decide)
instance : Never .optional (G.kw .any) := never_kw (by decide)
instance : Never .optional G.longLongType := by unfold G.longLongType; infer_instance
instance : Never .optional G.longType := by unfold G.longType; infer_instance
instance : Never .optional G.shortType := by unfold G.shortType; infer_instance
instance : Never .optional G.integerType := by unfold G.integerType; infer_instance
instance : Never .optional G.floatType := by unfold G.floatType; infer_instance
instance : Never .optional G.doubleType := by unfold G.doubleType; infer_instance
instance : Never .optional G.floatingPointType := by unfold G.floatingPointType; infer_instance
instance {b : Builtin} : Never .optional (G.builtin b) := by unfold G.builtin; infer_instance
instance : Never .optional G.promiseType := by unfold G.promiseType; infer_instance
instance : Never .optional G.sequenceType := by unfold G.sequenceType; infer_instance
instance : Never .optional G.frozenArrayType := by unfold G.frozenArrayType; infer_instance
instance : Never .optional G.recordType := inferInstanceAs (Never .optional (G.kw .record >>= fun _ => _))
instance : Never w G.unionType := by unfold G.unionType; infer_instance
instance : Reads .optional G.nonAnyType := by unfold G.nonAnyType; infer_instance
instance : Reads .optional G.singleType := by unfold G.singleType; infer_instance
instance : Reads .optional G.type := by unfold G.type; infer_instance
end


/-! ## Arguments -/

/-- Two alternatives, where what the first one tries in vain is accounted for by what the second one consumes. -/
theorem lin_orElse' {g h : G α} {X : List Char} {k k' kf : Nat} (hg : Lin A l g X k) (hh : Lin A l h X k')
    (hf : ∀ d a, 1 ≤ a → Calls A d a → ∀ s, nest s + l ≤ d → ∀ n e m r v, Runs charLeaf g s n (.err e) →
      Runs charLeaf h s m (.ok r v) → n ≤ kf * a * (s.length - r.length + 1)) :
    Lin A l (.orElse g h) X (k + kf + k') := ⟨fun d a ha hc s hd n x hr => by
  have hk : ∀ m, (k + kf + k') * a * (m + 1) = k * a * (m + 1) + kf * a * (m + 1) + k' * a * (m + 1) := fun m => by
    rw [Nat.add_mul, Nat.add_mul, Nat.add_mul, Nat.add_mul]
  have := Runs.inv hr
  simp only [Runs.Inv] at this
  rcases this with ⟨r, v, h1, rfl⟩ | ⟨p, q, i, j, h1, h2, rfl⟩ | ⟨e, -, h1, rfl⟩
  · exact (hg.lin d a ha hc s hd _ _ h1).mono (Nat.mul_le_mul_right _ (by omega))
  · obtain ⟨h3, h4⟩ := hg.lin d a ha hc s hd _ _ h1
    obtain ⟨h5, h6⟩ := hh.lin d a ha hc s hd _ _ h2
    refine ⟨by rw [hk]; omega, fun r v e => ?_⟩
    obtain ⟨h7, h8, h9⟩ := h6 r v e
    refine ⟨h7, h8, ?_⟩
    subst e
    have h10 := hf d a ha hc s hd _ _ _ _ _ h1 h2
    refine h9.imp_left fun h9 => ?_
    rw [hk]
    omega
  · exact (hg.lin d a ha hc s hd _ _ h1).mono (Nat.mul_le_mul_right _ (by omega))⟩

theorem Bd.exact {k : Nat} {X : List Char} {s r : Str} {n : Nat} {v : α} (h : Bd A k X s n (.ok r v)) (hX : ∀ c ∈ X, ¬ At c r) :
    n ≤ k * (s.length - r.length + 1) ∧ r.length ≤ s.length := by
  obtain ⟨-, h1, h2⟩ := h.ok _ _ rfl
  exact ⟨h2.resolve_right fun ⟨c, h3, h4⟩ => hX c h3 h4, h1.length_le⟩

theorem optKw_ok {k : Kw} {s r : Str} {n : Nat} {b : Bool} (h : Runs charLeaf (G.optKw k) s n (.ok r b)) :
    r = s ∨ ∃ u, charLeaf _ (.kw k) s = .ok r u := by
  obtain ⟨q', u', i, j, h1, h2, -⟩ := bind_ok h
  rw [ret_ok h2]
  have := Runs.inv h1
  simp only [Runs.Inv] at this
  rcases this with ⟨r', v', h18, h19⟩ | ⟨p, t, h18, h19⟩ | ⟨e, -, h18, h19⟩
  · cases h19
    obtain ⟨-, e⟩ := kw_runs h18
    exact .inr ⟨_, e.symm⟩
  · cases h19; exact .inl rfl
  · cases h19

theorem attrs_none {s : Str} (hs : ¬ At '[' s) {n : Nat} {x : Res Char Attrs} (h : Runs charLeaf G.attrs s n x) :
    n ≤ 1 ∧ ((∃ e, x = .err e) ∨ ∃ v, x = .ok s v) := by
  have := Runs.inv (show Runs charLeaf (.opt G.extAttrList) s n _ from h)
  simp only [Runs.Inv] at this
  have key := (inferInstance : Opens '[' G.extAttrList).opens
  rcases this with ⟨r', v', h18, rfl⟩ | ⟨p, t, h18, rfl⟩ | ⟨e, -, h18, rfl⟩
  · rcases key _ _ _ h18 with h | ⟨-, e, h⟩
    · exact (hs h).elim
    · cases h
  · rcases key _ _ _ h18 with h | ⟨h, -⟩
    · exact (hs h).elim
    · exact ⟨h, .inr ⟨_, rfl⟩⟩
  · rcases key _ _ _ h18 with h | ⟨h, -⟩
    · exact (hs h).elim
    · exact ⟨h, .inl ⟨_, rfl⟩⟩

theorem single_variadic [Usual A] (d a : Nat) (ha : 1 ≤ a) (hc : Calls A d a) (s : Str) (hd : nest s + l ≤ d) (n : Nat)
    (e : Err Char) (m : Nat) (r : Str) (v : Argument) (h1 : Runs charLeaf G.singleArgument s n (.err e))
    (h2 : Runs charLeaf G.variadicArgument s m (.ok r v)) : n ≤ 1019 * a * (s.length - r.length + 1) := by
  obtain ⟨s1, v1, i1, j1, h3, h4, -⟩ := bind_ok h2
  obtain ⟨s2, v2, i2, j2, h5, h6, -⟩ := bind_ok h4
  obtain ⟨s3, v3, i3, j3, h7, h8, -⟩ := bind_ok h6
  have h9 : r <:+ s3 := runs_suffix (st := true) (inferInstance : Guarded true (G.ident >>= fun _ => pure _) true) h8
  obtain ⟨-, e3⟩ := punct_runs h7
  have h10 := leaf_at (z := '.') rfl e3.symm
  have h11 := leaf_suffix e3.symm
  have h12 : ¬ At '[' s1 := fun h => stop_of '[' h _ h5
  have h13 := (inferInstance : Tame l G.attrs l _ 6).effect' body_tame (st := false) inferInstance h3
  obtain ⟨h14, h15⟩ := ((inferInstance : Lin A l G.attrs ['['] 759).lin d a ha hc s hd _ _ h3).exact (by simpa using h12)
  obtain ⟨h16, h17⟩ := ((inferInstance : Lin A l G.type ['<'] 218).lin d a ha hc s1 (by omega) _ _ h5).exact
    (by simp; intro h; exact absurd (h.det h10) (by decide))
  have h18 := h9.length_le
  have h19 := h11.length_le
  have h20 : i1 + i2 + 42 ≤ 1019 * a * (s.length - r.length + 1) := by
    have h1 : 759 * a * (s.length - s1.length + 1) ≤ 759 * a * (s.length - r.length + 1) := Nat.mul_le_mul_left _ (by omega)
    have h2 : 218 * a * (s1.length - s2.length + 1) ≤ 218 * a * (s.length - r.length + 1) := Nat.mul_le_mul_left _ (by omega)
    have h3 : 42 ≤ 42 * a * (s.length - r.length + 1) :=
      Nat.le_trans (show 42 ≤ 42 * a by omega) (Nat.le_mul_of_pos_right _ (by omega))
    have h4 : 1019 * a * (s.length - r.length + 1) = 759 * a * (s.length - r.length + 1) + 218 * a * (s.length - r.length + 1)
      + 42 * a * (s.length - r.length + 1) := by rw [← Nat.add_mul, ← Nat.add_mul, ← Nat.add_mul, ← Nat.add_mul]
    omega
  refine Nat.le_trans ?_ h20
  rcases bind_err h1 with ⟨q1, u1, k1, k2, h21, h22, rfl⟩ | h21
  · obtain ⟨rfl, h23⟩ := Verif.Runs.det h3 _ _ h21
    cases h23
    rcases bind_err h22 with ⟨q2, u2, k3, k4, h24, h25, rfl⟩ | h24
    · have h26 := (inferInstance : Brief (G.optKw .optional) 1).brief _ _ _ h24
      rcases optKw_ok h24 with rfl | ⟨u, h27⟩
      · rcases bind_err h25 with ⟨q3, u3, k5, k6, h28, h29, rfl⟩ | h28
        · obtain ⟨q4, u4, k7, k8, h30, h31, rfl⟩ := bind_ok h28
          obtain ⟨h32, ⟨e, h33⟩ | ⟨v, h33⟩⟩ := attrs_none h12 h30
          · cases h33
          · cases h33
            obtain ⟨q5, u5, k9, k10, h34, h35, rfl⟩ := bind_ok h31
            obtain ⟨rfl, h36⟩ := Verif.Runs.det h5 _ _ h34
            cases h36
            obtain ⟨rfl, h37⟩ := Runs.inv h35
            cases h37
            have h38 := ((inferInstance : Blunt '.' (G.ident >>= _) 1).blunt _ _ _ h10 h29).1
            omega
        · rcases bind_err h28 with ⟨q4, u4, k7, k8, h30, h31, rfl⟩ | h30
          · obtain ⟨h32, ⟨e, h33⟩ | ⟨v, h33⟩⟩ := attrs_none h12 h30
            · cases h33
            · cases h33
              rcases bind_err h31 with ⟨q5, u5, k9, k10, h34, h35, rfl⟩ | h34
              · obtain ⟨-, h⟩ := Runs.inv h35
                cases h
              · have := (Verif.Runs.det h5 _ _ h34).2
                cases this
          · have := (attrs_none h12 h30).1
            omega
      · have h28 := (inferInstance : Reads .optional G.type).reads _ _ _ _ _ _ h27 h5
        have h29 : k4 ≤ 40 := by
          rcases h28 with rfl | h28
          · exact ((inferInstance : Blunt '.' (G.attributedType >>= _) 40).blunt _ _ _ h10 h25).1
          · exact ((inferInstance : Blunt '?' (G.attributedType >>= _) 40).blunt _ _ _ h28 h25).1
        omega
    · have := (inferInstance : Brief (G.optKw .optional) 1).brief _ _ _ h24
      omega
  · have := (Verif.Runs.det h3 _ _ h21).2
    cases this

instance [Usual A] : Lin A l G.argument [] 3752 := by
  unfold G.argument
  exact Lin.mono (lin_orElse' (kf := 1019) (inferInstance : Lin A l G.singleArgument [] 1754)
    (lin_last (inferInstance : Lin A l G.variadicArgument [] 979)) fun d a ha hc s hd n e m r v h1 h2 => by
      rcases or_ok h2 with ⟨m, h2⟩ | ⟨m, h2⟩
      · exact single_variadic d a ha hc s hd n e m r v h1 h2
      · obtain ⟨-, h⟩ := Runs.inv h2
        cases h) (by decide)

/-! ## Recursive calls -/

theorem calls [Usual A] (d : Nat) : Calls A d (3752 ^ d) := by
  induction d with
  | zero => exact fun _ _ _ _ _ h => absurd h (by omega)
  | succ d ih =>
    intro α N s c x hs hr
    have h1 : 1 ≤ 3752 ^ d := Nat.pos_of_ne_zero (by simp)
    have hr := Runs.inv hr
    rw [Nat.pow_succ, Nat.mul_comm]
    have key : ∀ (B : Str → Nat) [Usual B], Calls B d (3752 ^ d) → Bd B (3752 * 3752 ^ d) ['<'] s c x := fun B _ ih => by
      have key : ∀ {g : G α} {X k}, Lin B 0 g X k → X ⊆ ['<'] → k ≤ 3752 → Runs charLeaf g s c x →
          Bd B (3752 * 3752 ^ d) ['<'] s c x := fun h hX hk hr =>
        ((h.weaken hX).mono hk).lin d _ h1 ih s (by omega) c x hr
      cases N with
      | type => exact key (inferInstance : Lin B 0 G.type _ _) (by simp) (by decide) hr
      | nonAny => exact key (inferInstance : Lin B 0 G.nonAnyType _ _) (by simp) (by decide) hr
      | unionMember => exact key (inferInstance : Lin B 0 G.unionMemberType _ _) (by simp) (by decide) hr
      | argument => exact key (inferInstance : Lin B 0 G.argument _ _) (by simp) (by decide) hr
    exact ⟨key A ih, key ahead ih.ahead⟩

end Verif.Linear
