import Verif.Proof.VisitsMember

/-! # Visits of definitions and documents -/

namespace Verif.Visits
open Nom Spec
open Linear (At Refuse Leafy ahead leaf_suffix leaf_lt ahead_le leaf_ahead body_tame Usual consRes_eq leaf_at Brief semi_ahead Ends Kws
  Idn Brace Barred bind_ok punct_runs)

set_option synthInstance.maxSize 2000
set_option synthInstance.maxHeartbeats 400000

variable {α β : Type} {l : Nat} {P : Str → Prop} {k k' : Kw}

/-- When the parser fails, it has looked at nothing behind the first semicolon, except on such texts. -/
class Deeper (P : outParam (Str → Prop)) (g : G α) : Prop where
  deeper : ∀ m s n e, V m g s n (.err e) → (m + ahead s < s.length → n = 0) ∨ P s

instance {f : Unit → G β} [h : ∀ a, Deeper P (f a)] : Deeper (Kws k P) (G.kw k >>= f) := ⟨fun m s n e hr => by
  rcases bind_err hr with ⟨q, u, i, j', h1, h2, rfl⟩ | h1
  · obtain ⟨rfl, e⟩ := kw_v h1
    have h4 := leaf_ahead e.symm
    rcases (h u).deeper _ _ _ _ h2 with h3 | h3
    · exact .inl fun h => by rw [visit_zero (by omega), h3 (by omega)]
    · exact .inr ⟨q, u, e.symm, h3⟩
  · obtain ⟨rfl, -⟩ := kw_v h1
    exact .inl fun h => visit_zero (by omega)⟩
instance {f : Str → G β} [h : ∀ a, Deeper P (f a)] : Deeper (Idn P) (G.ident >>= f) := ⟨fun m s n e hr => by
  rcases bind_err hr with ⟨q, u, i, j', h1, h2, rfl⟩ | h1
  · obtain ⟨rfl, e⟩ := ident_v h1
    have h4 := leaf_ahead e.symm
    rcases (h u).deeper _ _ _ _ h2 with h3 | h3
    · exact .inl fun h => by rw [visit_zero (by omega), h3 (by omega)]
    · exact .inr ⟨q, u, e.symm, h3⟩
  · obtain ⟨rfl, -⟩ := ident_v h1
    exact .inl fun h => visit_zero (by omega)⟩
instance {g : G α} {f : α → G β} : Deeper Brace (G.braced g >>= f) := ⟨fun m s n e hr =>
  ((inferInstance : Opens '{' (G.braced g >>= f)).opens _ _ _ _ hr).elim (fun h => .inr (.inr h)) fun h => .inl fun h' => h.1 (by omega)⟩
instance : Opens ':' G.inheritance := opens_bind rfl
instance {f : Option Str → G β} [h : ∀ a, Deeper Brace (f a)] : Deeper Brace (.opt G.inheritance >>= f) :=
  ⟨fun m s n e hr => by
  have key := (inferInstance : Opens ':' G.inheritance).opens
  rcases bind_err hr with ⟨q, u, i, j', h1, h2, rfl⟩ | h1
  · have := Weighed.inv h1
    simp only [Weighed.Inv] at this
    rcases this with ⟨r', v', h18, h19⟩ | ⟨p, t, h18, h19⟩ | ⟨e, -, h18, h19⟩
    · rcases key _ _ _ _ h18 with h | ⟨-, e, h⟩
      · exact .inr (.inl h)
      · cases h
    · cases h19
      rcases key _ _ _ _ h18 with h3 | ⟨h3, -⟩
      · exact .inr (.inl h3)
      · exact ((h _).deeper _ _ _ _ h2).imp_left fun h h' => by rw [h h', h3 (by omega)]
    · cases h19
  · have := Weighed.inv h1
    simp only [Weighed.Inv] at this
    rcases this with ⟨r', v', h18, h19⟩ | ⟨p, t, h18, h19⟩ | ⟨e, -, h18, h19⟩
    · cases h19
    · cases h19
    · rcases key _ _ _ _ h18 with h3 | ⟨h3, -⟩
      · exact .inr (.inl h3)
      · exact .inl fun h' => h3 (by omega)⟩

/-! ## The alternatives -/

/-- Visits of a kind of definition. -/
class Def (g : G α) (k : outParam Nat) (P : outParam (Str → Prop)) : Prop where
  visits : ∀ d a, 1 ≤ a → Calls List.length d a → ∀ m s, nest s ≤ d → ∀ n x, V m g s n x →
    n ≤ k * a ∧ (∀ r v, x = .ok r v → (m < r.length → n = 0) ∧ r.length + ahead s ≤ s.length) ∧
    ∀ e, x = .err e → (m + ahead s < s.length → n = 0) ∨ ∃ j q v, Runs charLeaf G.attrs s j (.ok q v) ∧ P q

instance {g : G α} {k : Nat} [h : Mem 0 g k] : Def g k (fun _ => False) := ⟨fun d a ha hc m s hs n x hr => by
  obtain ⟨h1, h2, h3⟩ := h.mem d a ha hc.ahead m s hs _ _ hr
  refine ⟨h1, fun r v e => ?_, fun e h => .inl h2⟩
  have h5 := h3 _ _ e
  exact ⟨fun h => h2 (by omega), h5⟩⟩

instance {f : Attrs → G β} {k : Nat} [h : Lin List.length 0 (G.attrs >>= f) [] k] [he : Ends (G.attrs >>= f)]
    [hd : ∀ a, Deeper P (f a)] : Def (G.attrs >>= f) k P := ⟨fun d a ha hc m s hs n x hr => by
  obtain ⟨h1, -, h2⟩ := h.lin d a ha hc m s hs _ _ hr
  refine ⟨h1, fun r v e => ?_, fun e h => ?_⟩
  · subst e
    obtain ⟨-, h4⟩ := h2 _ _ rfl
    obtain ⟨_, h5, -⟩ := hr.runs
    exact ⟨h4.resolve_right (fun ⟨_, h, _⟩ => nomatch h), he.ends _ _ _ _ h5⟩
  · subst h
    have h3 := fun n' x' hr => (inferInstance : Lin ahead 0 G.attrs ['['] 109).lin d a ha hc.ahead m s hs n' x' hr
    rcases bind_err hr with ⟨q, u, i, j', h6, h7, rfl⟩ | h6
    · obtain ⟨-, h8, h9⟩ := h3 _ _ h6
      obtain ⟨h10, -⟩ := h9 _ _ rfl
      rcases (hd u).deeper _ _ _ _ h7 with h11 | h11
      · exact .inl fun h => by rw [h8 h, h11 (by omega)]
      · obtain ⟨_, h6, -⟩ := h6.runs
        exact .inr ⟨_, _, _, h6, h11⟩
    · exact .inl (h3 _ _ h6).reach⟩

/-- Visits of a choice of definitions. -/
class Defs (g : G α) (k : outParam Nat) : Prop where
  visits : ∀ d a, 1 ≤ a → Calls List.length d a → ∀ m s, nest s ≤ d → ∀ n x, V m g s n x →
    n ≤ k * a ∧ ∀ r v, x = .ok r v → (m < r.length → n = 0) ∧ r.length + ahead s ≤ s.length

instance : Defs (G.alts ([] : List (G α))) 0 := ⟨fun d a ha hc m s hs n x hr => by
  obtain ⟨rfl, rfl⟩ := Weighed.inv hr
  exact ⟨Nat.zero_le _, fun _ _ e => by cases e⟩⟩

instance {g : G α} {gs : List (G α)} {k j : Nat} [hg : Def g k P] [hh : Defs (G.alts gs) j] [hb : Barred P (G.alts gs)] :
    Defs (G.alts (g :: gs)) (k + j) := ⟨fun d a ha hc m s hs n x hr => by
  have h0 : (k + j) * a = k * a + j * a := Nat.add_mul _ _ _
  have := Weighed.inv (show V m (.orElse g (G.alts gs)) s n x from hr)
  simp only [Weighed.Inv] at this
  rcases this with ⟨r, v, h1, rfl⟩ | ⟨p, q, i, i', h1, h2, rfl⟩ | ⟨e, -, h1, rfl⟩
  · obtain ⟨h2, h3, -⟩ := hg.visits d a ha hc m s hs _ _ h1
    exact ⟨by omega, h3⟩
  · obtain ⟨h3, -, h4⟩ := hg.visits d a ha hc m s hs _ _ h1
    obtain ⟨h5, h6⟩ := hh.visits d a ha hc m s hs _ _ h2
    refine ⟨by omega, fun r v e => ?_⟩
    obtain ⟨h7, h8⟩ := h6 _ _ e
    subst e
    refine ⟨fun h => ?_, h8⟩
    rcases h4 _ rfl with h10 | ⟨_, q, u, h10, h11⟩
    · rw [h7 h, h10 (by omega)]
    · obtain ⟨_, h2, -⟩ := h2.runs
      exact (hb.barred _ _ _ _ _ _ _ h10 h11 h2).elim
  · have := (hg.visits d a ha hc m s hs _ _ h1).1
    exact ⟨by omega, fun _ _ e => by cases e⟩⟩

/-! ## The kinds of definitions -/

section
variable {A : Str → Nat} [Usual A]

instance : Lin A l (.opt G.inheritance) [':'] 2 := lin_opt inferInstance inferInstance
instance : Lin A l (.opt (G.punct .comma)) [] 1 := lin_of
theorem wide_enumValues : Wide A l (.separatedNonemptyList (G.punct .comma) G.stringLit) 5 := ⟨fun d a ha hc m s hd n x hr => by
  obtain ⟨h1, h2, h3⟩ := list1_lin (l := l) (sep := G.punct .comma) (g := G.stringLit) (X := []) (k := 1) (ks := 1) (st := true)
    (st' := true) (D := fun _ => True) (w := 1) (w' := 1) ha hc inferInstance inferInstance inferInstance inferInstance inferInstance
    inferInstance inferInstance inferInstance (inferInstanceAs (Lin A l (.leaf .string) [] 1)) (fun _ _ _ _ _ _ _ _ => .inr trivial)
    (fun _ _ h => nomatch h) inferInstance (fun _ _ _ _ => .inr trivial) s hd n x hr
  exact ⟨h1, h2, fun r v e => (h3 r v e).1⟩⟩
theorem wide_enumValueList : Wide A l G.enumValueList 6 :=
  wide_bind (st := true) (k := 5) (k' := 1) inferInstance inferInstance wide_enumValues fun _ =>
    (inferInstance : Lin A l (.opt (G.punct .comma) >>= fun _ => pure _) _ _).wide
theorem wide_enumBody : Wide A l (G.braced G.enumValueList) 8 :=
  wide_bind (st := true) (k := 1) (k' := 7) inferInstance inferInstance
    (inferInstance : Lin A l (G.punct .openBrace) [] 1).wide fun _ =>
  wide_bind (st := true) (k := 6) (k' := 1) inferInstance inferInstance wide_enumValueList fun _ =>
    (inferInstance : Lin A l (G.punct .closeBrace >>= fun _ => pure _) _ _).wide
end

instance {f : List Str → G β} {k : Nat} [h : ∀ a, Mem l (f a) k] : Mem l (G.braced G.enumValueList >>= f) (8 + k) :=
  mem_bind (st := true) inferInstance inferInstance wide_enumBody h

instance : Mem l G.callbackDefinition 224 := by
  unfold G.callbackDefinition; infer_instance
instance : Def G.callbackInterfaceDefinition 7189 (Kws .callback (Kws .interface (Idn Brace))) := by
  unfold G.callbackInterfaceDefinition; infer_instance
instance : Def G.interfaceDefinition 7188 (Kws .interface (Idn Brace)) := by
  unfold G.interfaceDefinition; infer_instance
instance : Def G.interfaceMixinDefinition 1723 (Kws .interface (Kws .mixin (Idn Brace))) := by
  unfold G.interfaceMixinDefinition; infer_instance
instance : Def G.namespaceDefinition 1496 (Kws .namespace (Idn Brace)) := by
  unfold G.namespaceDefinition; infer_instance
instance : Def G.dictionaryDefinition 578 (Kws .dictionary (Idn Brace)) := by
  unfold G.dictionaryDefinition; infer_instance
instance : Def G.partialInterfaceDefinition 7187 (Kws .partial (Kws .interface (Idn Brace))) := by
  unfold G.partialInterfaceDefinition; infer_instance
instance : Def G.partialInterfaceMixinDefinition 1724 (Kws .partial (Kws .interface (Kws .mixin (Idn Brace)))) := by
  unfold G.partialInterfaceMixinDefinition; infer_instance
instance : Def G.partialDictionaryDefinition 577 (Kws .partial (Kws .dictionary (Idn Brace))) := by
  unfold G.partialDictionaryDefinition; infer_instance
instance : Def G.partialNamespaceDefinition 1497 (Kws .partial (Kws .namespace (Idn Brace))) := by
  unfold G.partialNamespaceDefinition; infer_instance
instance : Mem l G.enumDefinition 120 := by
  unfold G.enumDefinition; infer_instance
instance : Mem l G.typedefDefinition 324 := by
  unfold G.typedefDefinition; infer_instance
instance : Mem l G.includesStatementDefinition 113 := by
  unfold G.includesStatementDefinition; infer_instance
instance : Mem l G.implementsDefinition 113 := by
  unfold G.implementsDefinition; infer_instance

instance : Defs G.definition 30053 := by
  unfold G.definition; infer_instance

/-- **Visits of a place in a document.** -/
theorem document_visits (d : Nat) {m : Nat} {s : Str} (hs : nest s ≤ d) {n : Nat} {x : Res Char (List Definition)}
    (hr : V m G.definitions s n x) : n ≤ 60106 * 553 ^ d := by
  have ha : 1 ≤ 553 ^ d := Nat.pos_of_ne_zero (by simp)
  have h := (many_visits (g := G.definition) (b := 30053 * 553 ^ d) (N := d) (D := fun _ => True)
    (fun s hs n x hr => ?_) s.length s (Nat.le_refl _) hs n x hr).1
  · rw [← Nat.mul_assoc] at h
    exact h
  · have h0 : ∀ r v, x = .ok r v → nest r ≤ nest s := fun r v e => by
      subst e
      have := effect (inferInstance : Tame 0 G.definition 0 7514 6) (inferInstance : Guarded true G.definition true) hr
      omega
    obtain ⟨h1, h2⟩ := (inferInstance : Defs G.definition 30053).visits d _ ha (calls_visits d) m s hs n x hr
    refine ⟨h1, fun r v e => ?_, fun _ _ => .inr trivial⟩
    exact ⟨(h2 r v e).1, h0 r v e⟩

end Verif.Visits
