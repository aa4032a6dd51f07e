import Verif.Proof.VisitsAttr

/-! # Visits of arguments -/

namespace Verif.Visits
open Nom Spec
open Linear (At Refuse Leafy ahead leaf_suffix leaf_lt ahead_le body_tame Usual consRes_eq leaf_at Generic Sticky kw_kw kw_ident Brief
  bind_ok or_ok alts_ok ret_ok ident_runs punct_runs singleRest attrs_again optKw_ok stop_of)

set_option synthInstance.maxSize 2000
set_option synthInstance.maxHeartbeats 400000

variable {α β : Type} {A : Str → Nat} {l m : Nat} {c : Char} {w : Kw}

/-! ## Values -/

/-- Characters that begin no number. -/
class NotNum (c : Char) : Prop where
  notNum : ¬ NumChar c

instance : NotNum '[' := ⟨by unfold NumChar IsDig; decide⟩
instance : NotNum '{' := ⟨by unfold NumChar IsDig; decide⟩

theorem refuse_number [h : NotNum c] {v : Str} (hv : Number v) (hn : v ≠ []) : v ≠ [] ∧ v.head? ≠ some c := by
  refine ⟨hn, fun e => ?_⟩
  cases v with
  | nil => cases e
  | cons d v =>
    cases e
    exact h.notNum (hv.chars _ (by simp))

instance [NotNum c] : Refuse c .dec := ⟨fun w v h => by
  obtain ⟨rfl, h⟩ := h
  refine refuse_number (.inl h) ?_
  obtain ⟨g, d, ds, rfl, -⟩ := dec_nf h
  simp⟩
instance [NotNum c] : Refuse c .hex := ⟨fun w v h => by
  obtain ⟨rfl, h⟩ := h
  refine refuse_number (.inr (.inl h)) ?_
  obtain ⟨g, d, ds, rfl, -⟩ := hex_nf h
  simp⟩
instance [NotNum c] : Refuse c .oct := ⟨fun w v h => by
  obtain ⟨rfl, h⟩ := h
  refine refuse_number (.inr (.inr (.inl h))) ?_
  obtain ⟨g, ds, rfl, -⟩ := oct_nf h
  simp⟩
instance [NotNum c] : Refuse c .float := ⟨fun w v h => by
  obtain ⟨rfl, h⟩ := h
  refine refuse_number (.inr (.inr (.inr h))) ?_
  obtain ⟨g, u, d, ds, rfl, -⟩ := float_nf h
  simp⟩

instance : Here G.booleanLit := by unfold G.booleanLit; infer_instance
instance : Here G.floatLit := by unfold G.floatLit; infer_instance
instance : Here G.integerLit := by unfold G.integerLit; infer_instance
instance : Exact G.booleanLit := by unfold G.booleanLit; infer_instance
instance : Exact G.floatLit := by unfold G.floatLit; infer_instance
instance : Exact G.integerLit := by unfold G.integerLit; infer_instance
instance : Exact G.emptyArrayLit := by unfold G.emptyArrayLit; infer_instance
instance : Exact G.emptyDictionaryLit := by unfold G.emptyDictionaryLit; infer_instance
instance : Opens '[' G.emptyArrayLit := opens_bind rfl
instance : Opens '{' G.emptyDictionaryLit := opens_bind rfl
instance {f : α → β} {g : G α} [h : Opens c g] : Opens c (G.variant f g) := inferInstanceAs (Opens c (g >>= fun _ => _))
instance [NotNum c] [Linear.Sign c] : Blunt c G.floatLit := by unfold G.floatLit; infer_instance
instance [Refuse c (.punct .openBrace)] : Blunt c G.emptyDictionaryLit := by unfold G.emptyDictionaryLit; infer_instance
instance [NotNum c] : Blunt c G.integerLit := by unfold G.integerLit; infer_instance

theorem exact_open {g : G α} {gs : List (G α)} (hg : Exact g) (ho : Opens c g) (hb : Blunt c (G.alts gs)) (hs : Exact (G.alts gs)) :
    Exact (G.alts (g :: gs)) :=
  exact_orElse hg hs fun m s n e i r v h1 h2 h => by
    rcases ho.opens _ _ _ _ h1 with h3 | ⟨h3, -⟩
    · obtain ⟨-, e, h4⟩ := hb.blunt _ _ _ _ h3 h2
      cases h4
    · exact h3 (by have := h2.suffix.length_le; omega)

instance : Exact G.defaultValue := by
  have h1 : Exact (G.alts [G.variant DefaultValue.float G.floatLit, G.variant .integer G.integerLit, G.kwAs .null .null,
    G.variant .string G.stringLit]) := inferInstance
  have h2 := exact_open (c := '{') (g := G.variant (fun _ => DefaultValue.emptyDictionary) G.emptyDictionaryLit) inferInstance
    inferInstance inferInstance h1
  have h3 := exact_open (c := '[') (g := G.variant (fun _ => DefaultValue.emptyArray) G.emptyArrayLit) inferInstance
    inferInstance inferInstance h2
  unfold G.defaultValue
  infer_instance
instance : Exact G.default := by unfold G.default; infer_instance
instance : Exact G.constValue := by unfold G.constValue; infer_instance
instance : Opens '=' G.default := opens_bind rfl

section
variable [Usual A]
instance : Meas A G.integerLit := by unfold G.integerLit; infer_instance
instance : Meas A G.floatLit := by unfold G.floatLit; infer_instance
instance : Meas A G.booleanLit := by unfold G.booleanLit; infer_instance
instance : Meas A G.emptyArrayLit := by unfold G.emptyArrayLit; infer_instance
instance : Meas A G.emptyDictionaryLit := by unfold G.emptyDictionaryLit; infer_instance
instance : Meas A G.defaultValue := by unfold G.defaultValue; infer_instance
instance : Meas A G.default := by unfold G.default; infer_instance
instance : Meas A G.constValue := by unfold G.constValue; infer_instance
instance lin_default : Lin A l (.opt G.default) ['='] 16 := lin_opt lin_of inferInstance
instance {b : Bool} {f : Option (Option DefaultValue) → Option DefaultValue} :
    Lin A l (G.variant f (G.cond b (.opt G.default))) ['='] 16 := by
  cases b
  · exact ((inferInstance : Lin A l (G.variant f (pure none)) [] 0).mono (by decide)).weaken fun _ h => nomatch h
  · exact (inferInstance : Lin A l (G.variant f (G.variant some (.opt G.default))) ['='] 16)
instance : Lin A l G.variadicArgument [] 214 := by unfold G.variadicArgument; infer_instance
instance {as : Attrs} : Lin A l (singleRest as) ['='] 230 := by unfold singleRest; infer_instance
end

/-! ## Arguments -/

/-- An option whose failure, if it is not at the first character, makes the rest fail. -/
theorem lin_bind_opt {g : G α} {f : Option α → G β} {j w : Nat} {st : Bool} {Y : List Char} {k k' : Nat}
    (hs : Guarded true g st) (ht' : Tame l (.opt g) j w 6) (ho : Opens c g)
    (hg : Lin A l g [] k) (hf : ∀ a, Lin A j (f a) Y k')
    (hb : ∀ m s n e i r v, At c s → V m g s n (.err e) → ¬ V m (f none) s i (.ok r v)) :
    Lin A l (.bind (.opt g) f) Y (k + k') := ⟨fun d a ha hc m s hd n x hr => by
  have h1 := (lin_opt hg ho).lin d a ha hc m s hd
  have := Weighed.inv hr
  simp only [Weighed.Inv] at this
  rcases this with ⟨r, v, i, j, h2, h3, rfl⟩ | ⟨e, h2, rfl⟩
  · have h4 := effect ht' (st := false) (.opt hs) h2
    obtain ⟨h5, h5', h6⟩ := h1 _ _ h2
    obtain ⟨h7, h8⟩ := h6 _ _ rfl
    obtain ⟨h10, h10', h11⟩ := (hf v).lin d a ha hc m r (by omega) _ _ h3
    refine ⟨by rw [Nat.add_mul]; omega, fun h => ?_, fun q u e => ?_⟩
    · have := h5' h
      have := h10' (by omega)
      omega
    · subst e
      obtain ⟨h13, h15⟩ := h11 _ _ rfl
      have h16 := h3.suffix.length_le
      refine ⟨by omega, ?_⟩
      have h17 : m < r.length → i = 0 := by
        have := Weighed.inv h2
        simp only [Weighed.Inv] at this
        rcases this with ⟨r', v', h18, h19⟩ | ⟨p, t, h18, h19⟩ | ⟨e, -, h18, h19⟩
        · cases h19
          obtain ⟨-, h20⟩ := (hg.lin d a ha hc m s hd _ _ h18).ok _ _ rfl
          rcases h20 with h20 | ⟨_, h20, -⟩
          · exact h20
          · cases h20
        · cases h19
          rcases ho.opens _ _ _ _ h18 with h20 | ⟨h20, -⟩
          · exact (hb _ _ _ _ _ _ _ h20 h18 h3).elim
          · exact h20
        · cases h19
      exact h15.imp_left fun h15 h => by rw [h17 (by omega), h15 h]
  · obtain ⟨h5, h5', h6⟩ := h1 _ _ h2
    exact ⟨Nat.le_trans h5 (Nat.mul_le_mul_right _ (by omega)), h5', fun _ _ e => by cases e⟩⟩

instance [Usual A] : Lin A l G.singleArgument ['='] 339 := by
  refine lin_bind_opt (c := '[') (g := G.extAttrList) (f := singleRest) (k := 109) (k' := 230) (st := true) inferInstance
    inferInstance inferInstance inferInstance (fun a => inferInstance) fun m s n e i r v hs he hr => ?_
  obtain ⟨_, he, -⟩ := he.runs
  obtain ⟨_, hr, -⟩ := hr.runs
  obtain ⟨q, u, i1, j1, h1, h2, -⟩ := bind_ok hr
  have h3 : q = s := by
    rcases (inferInstance : Linear.Skips '[' (G.optKw .optional) 1).skips _ _ _ hs h1 with ⟨-, ⟨e, h⟩ | ⟨v, h⟩⟩
    · cases h
    · cases h; rfl
  subst h3
  obtain ⟨q', u', i2, j2, h4, h5, -⟩ := bind_ok h2
  obtain ⟨q'', u'', i3, j3, h6, h7, -⟩ := bind_ok h4
  obtain rfl := attrs_again he h6
  exact stop_of '[' hs _ (show Runs charLeaf (G.type >>= _) _ _ _ from h7)

instance {g : G α} : Word (G.parenthesized g) := ⟨fun m s n r v hr k q u h => by
  obtain ⟨_, hr, -⟩ := hr.runs
  obtain ⟨q, u, i, j, h1, -, -⟩ := bind_ok hr
  obtain ⟨-, e⟩ := punct_runs h1
  exact (Refuse.not_ok (leaf_at (z := '(') rfl e.symm) h).elim⟩
instance : Word G.unionType := by unfold G.unionType; infer_instance
instance : Word G.nonAnyType := by unfold G.nonAnyType; infer_instance
instance : Word G.singleType := by unfold G.singleType; infer_instance
instance : Word G.type := by unfold G.type; infer_instance

theorem Bd.exact {k : Nat} {X : List Char} {s r : Str} {n : Nat} {v : α} (h : Bd A m k X s n (.ok r v)) (hX : ∀ c ∈ X, ¬ At c r) :
    m < r.length → n = 0 := (h.ok _ _ rfl).2.resolve_right fun ⟨c, h3, h4⟩ => hX c h3 h4

theorem attrs_none {s : Str} (hs : ¬ At '[' s) {n : Nat} {x : Res Char Attrs} (h : V m G.attrs s n x) :
    (m < s.length → n = 0) ∧ ((∃ e, x = .err e) ∨ ∃ v, x = .ok s v) := by
  have := Weighed.inv (show V m (.opt G.extAttrList) s n _ from h)
  simp only [Weighed.Inv] at this
  have key := (inferInstance : Opens '[' G.extAttrList).opens
  rcases this with ⟨r', v', h18, rfl⟩ | ⟨p, t, h18, rfl⟩ | ⟨e, -, h18, rfl⟩
  · rcases key _ _ _ _ h18 with h | ⟨-, e, h⟩
    · exact (hs h).elim
    · cases h
  · rcases key _ _ _ _ h18 with h | ⟨h, -⟩
    · exact (hs h).elim
    · exact ⟨h, .inr ⟨_, rfl⟩⟩
  · rcases key _ _ _ _ h18 with h | ⟨h, -⟩
    · exact (hs h).elim
    · exact ⟨h, .inl ⟨_, rfl⟩⟩

theorem vbind_ok {g : G α} {f : α → G β} {s r : Str} {n : Nat} {v : β} (h : V m (.bind g f) s n (.ok r v)) :
    ∃ q u i j, V m g s i (.ok q u) ∧ V m (f u) q j (.ok r v) ∧ n = i + j := by
  have := Weighed.inv h
  simp only [Weighed.Inv] at this
  rcases this with ⟨q, u, i, j, h1, h2, rfl⟩ | ⟨e, h1, h2⟩
  · exact ⟨q, u, i, j, h1, h2, rfl⟩
  · cases h2

theorem voptKw {k : Kw} {s : Str} {n : Nat} {x : Res Char Bool} (h : V m (G.optKw k) s n x) : n = visit m s := by
  have := Weighed.inv (show V m (.bind (.opt (.leaf (.kw k))) _) s n _ from h)
  simp only [Weighed.Inv] at this
  have key : ∀ {n x}, V m (.opt (.leaf (.kw k))) s n x → n = visit m s := fun h => by
    have := Weighed.inv h
    simp only [Weighed.Inv] at this
    rcases this with ⟨r', v', h18, rfl⟩ | ⟨p, t, h18, rfl⟩ | ⟨e, -, h18, rfl⟩
    · exact (Weighed.inv h18).1
    · exact (Weighed.inv h18).1
    · exact (Weighed.inv h18).1
  rcases this with ⟨q, u, i, j, h1, h2, rfl⟩ | ⟨e, h1, h2⟩
  · obtain ⟨rfl, -⟩ := Weighed.inv h2
    exact key h1
  · exact key h1

theorem single_variadic [Usual A] (d a : Nat) (ha : 1 ≤ a) (hc : Calls A d a) (s : Str) (hd : nest s + l ≤ d) (n : Nat)
    (e : Err Char) (i : Nat) (r : Str) (v : Argument) (h1 : V m G.singleArgument s n (.err e))
    (h2 : V m G.variadicArgument s i (.ok r v)) (hm : m < r.length) : n = 0 := by
  obtain ⟨s1, v1, i1, j1, h3, h4, -⟩ := vbind_ok h2
  obtain ⟨s2, v2, i2, j2, h5, h6, -⟩ := vbind_ok h4
  obtain ⟨s3, v3, i3, j3, h7, h8, -⟩ := vbind_ok h6
  have h9 := h8.suffix.length_le
  obtain ⟨-, e3⟩ := punct_v h7
  have h10 := leaf_at (z := '.') rfl e3.symm
  have h11 := (leaf_suffix e3.symm).length_le
  obtain ⟨_, h5', -⟩ := h5.runs
  have h12 : ¬ At '[' s1 := fun h => stop_of '[' h _ h5'
  have h13 := effect (st := false) (inferInstance : Tame l G.attrs l _ 6) inferInstance h3
  have h14 := ((inferInstance : Lin A l G.attrs ['['] 109).lin d a ha hc m s hd _ _ h3).exact (by simpa using h12)
  have h16 := ((inferInstance : Lin A l G.type ['<'] 103).lin d a ha hc m s1 (by omega) _ _ h5).exact
    (by simp; intro h; exact absurd (h.det h10) (by decide))
  have h17 := h3.suffix.length_le
  have h18 := h5.suffix.length_le
  have h19 := h14 (by omega)
  have h20 := h16 (by omega)
  rcases bind_err h1 with ⟨q1, u1, k1, k2, h21, h22, rfl⟩ | h21
  · obtain ⟨rfl, h23⟩ := h3.det h21
    cases h23
    rcases bind_err h22 with ⟨q2, u2, k3, k4, h24, h25, rfl⟩ | h24
    · have h26 := voptKw h24
      rw [visit_zero (by omega)] at h26
      obtain ⟨_, h24', -⟩ := h24.runs
      rcases optKw_ok h24' with rfl | ⟨u, h27⟩
      · rcases bind_err h25 with ⟨q3, u3, k5, k6, h28, h29, rfl⟩ | h28
        · obtain ⟨q4, u4, k7, k8, h30, h31, rfl⟩ := vbind_ok h28
          obtain ⟨h32, ⟨e, h33⟩ | ⟨v, h33⟩⟩ := attrs_none h12 h30
          · cases h33
          · cases h33
            obtain ⟨q5, u5, k9, k10, h34, h35, rfl⟩ := vbind_ok h31
            obtain ⟨rfl, h36⟩ := h5.det h34
            cases h36
            obtain ⟨rfl, h37⟩ := Weighed.inv h35
            cases h37
            have h38 := ((inferInstance : Blunt '.' (G.ident >>= _)).blunt _ _ _ _ h10 h29).1 (by omega)
            have := h32 (by omega)
            omega
        · rcases bind_err h28 with ⟨q4, u4, k7, k8, h30, h31, rfl⟩ | h30
          · obtain ⟨h32, ⟨e, h33⟩ | ⟨v, h33⟩⟩ := attrs_none h12 h30
            · cases h33
            · cases h33
              rcases bind_err h31 with ⟨q5, u5, k9, k10, h34, h35, rfl⟩ | h34
              · obtain ⟨-, h⟩ := Weighed.inv h35
                cases h
              · have := (h5.det h34).2
                cases this
          · have := (attrs_none h12 h30).1 (by omega)
            omega
      · have h28 := (inferInstance : Linear.Reads .optional G.type).reads _ _ _ _ _ _ h27 h5'
        have h30 := (inferInstance : Word G.type).word _ _ _ _ _ h5 _ _ _ h27
        have h29 : k4 = 0 := by
          rcases h28 with rfl | h28
          · exact ((inferInstance : Blunt '.' (G.attributedType >>= _)).blunt _ _ _ _ h10 h25).1 (by omega)
          · exact ((inferInstance : Blunt '?' (G.attributedType >>= _)).blunt _ _ _ _ h28 h25).1 (by omega)
        omega
    · have h26 := voptKw h24
      rw [visit_zero (by omega)] at h26
      omega
  · have := (h3.det h21).2
    cases this

instance [Usual A] : Lin A l G.argument ['='] 553 := by
  unfold G.argument
  exact Lin.mono (lin_orElse (inferInstance : Lin A l G.singleArgument ['='] 339)
    (lin_last ((inferInstance : Lin A l G.variadicArgument [] 214).weaken fun _ h => nomatch h)) fun d a ha hc m s hd n e i r v h1 h2 => by
      rcases alts_last h2 with ⟨_, _, h, -⟩ | h2
      · cases h
      · exact .inl (single_variadic d a ha hc s hd n e i r v h1 h2)) (by decide)

/-! ## Recursive calls -/

theorem calls_visits [Usual A] (d : Nat) : Calls A d (553 ^ d) := by
  induction d with
  | zero => exact fun _ _ _ _ _ _ h => absurd h (by omega)
  | succ d ih =>
    intro α N m s n x hs hr
    have h1 : 1 ≤ 553 ^ d := Nat.pos_of_ne_zero (by simp)
    have hr := Weighed.inv hr
    rw [Nat.pow_succ, Nat.mul_comm]
    have key : ∀ (B : Str → Nat) [Usual B], Calls B d (553 ^ d) → Bd B m (553 * 553 ^ d) (calls N) s n x := fun B _ ih => by
      have key : ∀ {g : G α} {X k}, Lin B 0 g X k → X ⊆ calls N → k ≤ 553 → V m g s n x →
          Bd B m (553 * 553 ^ d) (calls N) s n x := fun h hX hk hr =>
        ((h.weaken hX).mono hk).lin d _ h1 ih m s (by omega) n x hr
      cases N with
      | type => exact key (inferInstance : Lin B 0 G.type _ _) (by simp [calls]) (by decide) hr
      | nonAny => exact key (inferInstance : Lin B 0 G.nonAnyType _ _) (by simp [calls]) (by decide) hr
      | unionMember => exact key (inferInstance : Lin B 0 G.unionMemberType _ _) (by simp [calls]) (by decide) hr
      | argument => exact key (inferInstance : Lin B 0 G.argument _ _) (by simp [calls]) (by decide) hr
    exact ⟨key A ih, key ahead ih.ahead⟩

end Verif.Visits
