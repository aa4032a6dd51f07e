import Verif.Proof.LinearArg

/-! # Costs of members -/

namespace Verif.Linear
open Nom Spec

set_option synthInstance.maxSize 2000
set_option synthInstance.maxHeartbeats 400000

variable {α β : Type} {l : Nat} {c : Char}

/-- Parsers that end with a semicolon, the first one in the text that they accept. -/
class Mem (l : Nat) (g : G α) (k : outParam Nat) : Prop where
  mem : ∀ d a, 1 ≤ a → Calls ahead d a → ∀ s, nest s + l ≤ d → ∀ n x, Runs charLeaf g s n x →
    n ≤ k * a * (ahead s + 1) ∧ ∀ r v, x = .ok r v → r.length + ahead s ≤ s.length ∧ r <:+ s

instance : Mem l (G.punct .semiColon) 1 := ⟨fun d a ha hc s hs n x hr => by
  obtain ⟨rfl, rfl⟩ := punct_runs hr
  exact ⟨Nat.mul_pos (by omega) (by omega), fun r v e => ⟨semi_ahead e, leaf_suffix e⟩⟩⟩
instance {g : G α} {f : α → β} {k : Nat} [h : Mem l g k] : Mem l (g >>= fun a => pure (f a)) k := ⟨fun d a ha hc s hs n x hr => by
  have := Runs.inv hr
  simp only [Runs.Inv] at this
  rcases this with ⟨q, u, i, j, h1, h2, rfl⟩ | ⟨e, h1, rfl⟩
  · obtain ⟨h3, h4⟩ := h.mem d a ha hc s hs _ _ h1
    obtain ⟨rfl, rfl⟩ := Runs.inv h2
    refine ⟨h3, fun r v e => ?_⟩
    cases e
    exact h4 _ _ rfl
  · exact ⟨(h.mem d a ha hc s hs _ _ h1).1, fun _ _ e => by cases e⟩⟩
instance {g : G α} {f : α → β} {k : Nat} [h : Mem l g k] : Mem l (G.variant f g) k := by unfold G.variant; infer_instance
instance {g : G α} {f : α → G β} {m w : Nat} {st : Bool} {X : List Char} {k k' : Nat} [hs : Guarded true g st]
    [ht : Tame l g m w 6] [hg : Lin ahead l g X k] [hf : ∀ a, Mem m (f a) k'] : Mem l (g >>= f) (k + k') :=
  ⟨fun d a ha hc s hd n x hr => by
  have := Runs.inv hr
  simp only [Runs.Inv] at this
  rcases this with ⟨q, u, i, j, h1, h2, rfl⟩ | ⟨e, h1, rfl⟩
  · obtain ⟨h3, h4⟩ := hg.lin d a ha hc s hd _ _ h1
    obtain ⟨h5, h6, -⟩ := h4 _ _ rfl
    have h7 := ht.effect' body_tame hs h1
    obtain ⟨h8, h9⟩ := (hf u).mem d a ha hc q (by omega) _ _ h2
    have h10 := h6.length_le
    have h12 : k' * a * (ahead q + 1) ≤ k' * a * (ahead s + 1) := Nat.mul_le_mul_left _ (by omega)
    refine ⟨by rw [Nat.add_mul, Nat.add_mul]; omega, fun r v e => ?_⟩
    obtain ⟨h13, h14⟩ := h9 _ _ e
    exact ⟨by omega, h14.trans h6⟩
  · refine ⟨Nat.le_trans (hg.lin d a ha hc s hd _ _ h1).total (Nat.mul_le_mul_right _ (Nat.mul_le_mul_right _ (by omega))),
      fun _ _ e => by cases e⟩⟩
instance : Mem l (G.alts ([] : List (G α))) 0 := ⟨fun d a ha hc s hd n x hr => by
  obtain ⟨rfl, rfl⟩ := Runs.inv hr
  exact ⟨Nat.zero_le _, fun _ _ e => by cases e⟩⟩
instance {g : G α} {gs : List (G α)} {k k' : Nat} [hg : Mem l g k] [hh : Mem l (G.alts gs) k'] :
    Mem l (G.alts (g :: gs)) (k + k') := ⟨fun d a ha hc s hd n x hr => by
  have := Runs.inv (show Runs charLeaf (.orElse g (G.alts gs)) s n x from hr)
  simp only [Runs.Inv] at this
  have hk : (k + k') * a * (ahead s + 1) = k * a * (ahead s + 1) + k' * a * (ahead s + 1) := by rw [Nat.add_mul, Nat.add_mul]
  rcases this with ⟨r, v, h1, rfl⟩ | ⟨p, q, i, j, h1, h2, rfl⟩ | ⟨e, -, h1, rfl⟩
  · obtain ⟨h3, h4⟩ := hg.mem d a ha hc s hd _ _ h1
    exact ⟨by omega, h4⟩
  · obtain ⟨h3, -⟩ := hg.mem d a ha hc s hd _ _ h1
    obtain ⟨h5, h6⟩ := hh.mem d a ha hc s hd _ _ h2
    exact ⟨by omega, h6⟩
  · obtain ⟨h3, h4⟩ := hg.mem d a ha hc s hd _ _ h1
    exact ⟨by omega, h4⟩⟩

section
variable {A : Str → Nat} [Usual A]
instance : Lin A l G.inheritance [] 2 := by unfold G.inheritance; infer_instance
instance : Brief G.stringifierOrInheritOrStatic 3 := by unfold G.stringifierOrInheritOrStatic; infer_instance
instance : Brief G.stringifierOrStatic 2 := by unfold G.stringifierOrStatic; infer_instance
instance : Brief G.special 4 := by unfold G.special; infer_instance
instance : Meas A G.stringifierOrInheritOrStatic := by unfold G.stringifierOrInheritOrStatic; infer_instance
instance : Meas A G.stringifierOrStatic := by unfold G.stringifierOrStatic; infer_instance
instance : Meas A G.special := by unfold G.special; infer_instance
instance : Meas A G.constType := by unfold G.constType; infer_instance
instance : Lin A l (.opt G.stringifierOrInheritOrStatic) [] 3 := lin_of
instance : Lin A l (.opt G.stringifierOrStatic) [] 2 := lin_of
instance : Lin A l (.opt G.special) [] 4 := lin_of
instance : Lin A l (.opt G.ident) [] 1 := lin_of
instance : Lin A l (.opt G.default) [] 16 := lin_of
instance : Lin A l G.constType [] 21 := lin_of
instance : Lin A l G.constValue [] 10 := lin_of
instance : Lin A l (.opt (G.parenthesized G.argumentList)) ['('] 171 := lin_opt inferInstance inferInstance
instance : Lin A l G.attributedTypePair ['<'] 1955 := by unfold G.attributedTypePair; infer_instance
instance : Lin A l (G.generics G.attributedType) [] 979 := lin_generics (k := 977)
instance : Lin A l (G.generics G.attributedTypePair) [] 1957 := lin_generics (k := 1955)
end

instance : Mem l G.constMember 794 := by unfold G.constMember; infer_instance
instance : Mem l G.attributeInterfaceMember 1743 := by unfold G.attributeInterfaceMember; infer_instance
instance : Mem l G.constructorInterfaceMember 931 := by unfold G.constructorInterfaceMember; infer_instance
instance : Mem l G.operationInterfaceMember 1156 := by unfold G.operationInterfaceMember; infer_instance
instance : Mem l G.singleTypedIterable 1740 := by unfold G.singleTypedIterable; infer_instance
instance : Mem l G.doubleTypedIterable 2718 := by unfold G.doubleTypedIterable; infer_instance
instance : Mem l G.iterableInterfaceMember 4458 := by unfold G.iterableInterfaceMember; infer_instance
instance : Mem l G.singleTypedAsyncIterable 1912 := by unfold G.singleTypedAsyncIterable; infer_instance
instance : Mem l G.doubleTypedAsyncIterable 2890 := by unfold G.doubleTypedAsyncIterable; infer_instance
instance : Mem l G.asyncIterableInterfaceMember 4802 := by unfold G.asyncIterableInterfaceMember; infer_instance
instance : Mem l G.maplikeInterfaceMember 2719 := by unfold G.maplikeInterfaceMember; infer_instance
instance : Mem l G.setlikeInterfaceMember 1741 := by unfold G.setlikeInterfaceMember; infer_instance
instance : Mem l G.stringifierMember 761 := by unfold G.stringifierMember; infer_instance
instance : Mem l G.interfaceMember 19105 := by unfold G.interfaceMember; infer_instance
instance : Mem l G.operationMixinMember 1151 := by unfold G.operationMixinMember; infer_instance
instance : Mem l G.attributeMixinMember 1741 := by unfold G.attributeMixinMember; infer_instance
instance : Mem l G.mixinMember 4447 := by unfold G.mixinMember; infer_instance
instance : Mem l G.operationNamespaceMember 1150 := by unfold G.operationNamespaceMember; infer_instance
instance : Mem l G.attributeNamespaceMember 1740 := by unfold G.attributeNamespaceMember; infer_instance
instance : Mem l G.namespaceMember 3684 := by unfold G.namespaceMember; infer_instance
instance : Mem l G.dictionaryMember 996 := by unfold G.dictionaryMember; infer_instance


/-! ## Repetitions -/

theorem many_lin {g : G α} {b N : Nat} {D : Str → Prop}
    (h : ∀ s, nest s ≤ N → ∀ n x, Runs charLeaf g s n x → n ≤ b * (s.length + 1) ∧
      (∀ r v, x = .ok r v → n ≤ b * (s.length - r.length + 1) ∧ r <:+ s ∧ nest r ≤ nest s) ∧ ∀ e, x = .err e → n ≤ b ∨ D s)
    (m : Nat) : ∀ s : Str, s.length ≤ m → nest s ≤ N → ∀ n x, Runs charLeaf (.many0 g) s n x → n ≤ 2 * b * s.length + b ∧
      ∀ r v, x = .ok r v → r <:+ s ∧ (n ≤ 2 * b * (s.length - r.length) + b ∨ D r) := by
  have h0 : ∀ m, b * (m + 1) ≤ 2 * b * m + b := fun m => by
    rw [Nat.mul_add, Nat.mul_assoc, Nat.two_mul]; omega
  induction m with
  | zero =>
    intro s hm hs n x hr
    have h00 := h0 s.length
    have := Runs.inv hr
    simp only [Runs.Inv] at this
    rcases this with ⟨r, v, i, j, y, h1, h2, h3, rfl, rfl⟩ | ⟨v, h1, rfl⟩ | ⟨p, t, h1, rfl⟩ | ⟨e, -, h1, rfl⟩
    · obtain ⟨-, h4, -⟩ := h s hs _ _ h1
      have := suffix_lt (h4 _ _ rfl).2.1 h2
      omega
    · exact ⟨Nat.le_trans (h s hs _ _ h1).1 h00, fun _ _ e => by cases e⟩
    · obtain ⟨h4, -, h5⟩ := h s hs _ _ h1
      refine ⟨Nat.le_trans h4 h00, fun r v e => ?_⟩
      cases e
      exact ⟨List.suffix_refl _, (h5 _ rfl).imp_left fun h => by omega⟩
    · exact ⟨Nat.le_trans (h s hs _ _ h1).1 h00, fun _ _ e => by cases e⟩
  | succ m ih =>
    intro s hm hs n x hr
    have h00 := h0 s.length
    have := Runs.inv hr
    simp only [Runs.Inv] at this
    rcases this with ⟨r, v, i, j, y, h1, h2, h3, rfl, rfl⟩ | ⟨v, h1, rfl⟩ | ⟨p, t, h1, rfl⟩ | ⟨e, -, h1, rfl⟩
    · obtain ⟨-, h4, -⟩ := h s hs _ _ h1
      obtain ⟨h5, h6, h7⟩ := h4 _ _ rfl
      have h8 := suffix_lt h6 h2
      obtain ⟨h9, h10⟩ := ih r (by omega) (by omega) _ _ h3
      have h11 : ∀ p, r.length = p + (r.length - p) → i + 2 * b * (r.length - p) ≤ 2 * b * (s.length - p) := fun p hp => by
        have : b * (s.length - r.length + 1) ≤ 2 * b * (s.length - r.length) := by
          rw [Nat.mul_comm 2 b, Nat.mul_assoc]
          exact Nat.mul_le_mul_left _ (by omega)
        rw [show s.length - p = s.length - r.length + (r.length - p) by omega, Nat.mul_add]
        omega
      refine ⟨?_, fun r' v' e => ?_⟩
      · have := h11 0 (by omega)
        simp at this
        omega
      · obtain ⟨u, h12⟩ := consRes_eq e
        obtain ⟨h13, h14⟩ := h10 _ _ h12
        have := h13.length_le
        refine ⟨h13.trans h6, h14.imp_left fun h14 => ?_⟩
        have := h11 r'.length (by omega)
        omega
    · exact ⟨Nat.le_trans (h s hs _ _ h1).1 h00, fun _ _ e => by cases e⟩
    · obtain ⟨h4, -, h5⟩ := h s hs _ _ h1
      refine ⟨Nat.le_trans h4 h00, fun r v e => ?_⟩
      cases e
      exact ⟨List.suffix_refl _, (h5 _ rfl).imp_left fun h => by omega⟩
    · exact ⟨Nat.le_trans (h s hs _ _ h1).1 h00, fun _ _ e => by cases e⟩

theorem lin_members {g : G α} {k kb w : Nat} (hs : Guarded true g true) (ht : Tame l g l w 5) (ht6 : Tame l g l w 6)
    (hg : Mem l g k) (hb : Blunt '}' g kb) :
    Lin List.length l (G.braced (.many0 g)) [] (2 * (k + kb) + 2) := by
  refine lin_enclosed (z := '}') rfl (.many0 hs) (m := l) inferInstance (.many0 hs ht) fun d a ha hc s hd n x hr => ?_
  have h1 : ∀ s, nest s ≤ d - l → ∀ n x, Runs charLeaf g s n x → n ≤ (k + kb) * a * (s.length + 1) ∧
      (∀ r v, x = .ok r v → n ≤ (k + kb) * a * (s.length - r.length + 1) ∧ r <:+ s ∧ nest r ≤ nest s) ∧
      ∀ e, x = .err e → n ≤ (k + kb) * a ∨ ¬ At '}' s := fun s hs' n x hr => by
    obtain ⟨h1, h2⟩ := hg.mem d a ha hc.ahead s (by omega) _ _ hr
    have h3 := ahead_le s
    have h4 : ∀ p, ahead s ≤ p → n ≤ (k + kb) * a * (p + 1) := fun p hp =>
      Nat.le_trans h1 (Nat.mul_le_mul (Nat.mul_le_mul_right _ (by omega)) (by omega))
    refine ⟨h4 _ h3, fun r v e => ?_, fun e h => ?_⟩
    · subst e
      obtain ⟨h5, h6⟩ := h2 _ _ rfl
      have h7 := ht6.effect' body_tame hs hr
      exact ⟨h4 _ (by omega), h6, by omega⟩
    · by_cases h5 : At '}' s
      · refine .inl (Nat.le_trans (hb.blunt _ _ _ h5 hr).1 ?_)
        exact Nat.le_trans (Nat.le_add_left _ _) (Nat.le_mul_of_pos_right _ ha)
      · exact .inr h5
  obtain ⟨h2, h3⟩ := many_lin h1 s.length s (Nat.le_refl _) (by omega) n x hr
  rw [← Nat.mul_assoc] at h2 h3
  have h4 : ∀ p, 2 * (k + kb) * a * p + (k + kb) * a ≤ 2 * (k + kb) * a * (p + 1) := fun p => by
    rw [Nat.mul_succ]
    exact Nat.add_le_add_left (Nat.mul_le_mul_right _ (by omega)) _
  refine ⟨Nat.le_trans h2 (h4 _), fun r v e => ?_⟩
  obtain ⟨h5, h6⟩ := h3 r v e
  exact ⟨Nat.add_comm _ _, h5, h6.imp_left fun h6 => Nat.le_trans h6 (h4 _)⟩

instance [Sign c] [Refuse c (.punct .openParen)] : Blunt c G.returnType 40 := by unfold G.returnType G.returnTypeOf; infer_instance
instance [Sign c] : Blunt c G.stringifierOrInheritOrStatic 3 := by unfold G.stringifierOrInheritOrStatic; infer_instance
instance [Sign c] : Blunt c G.stringifierOrStatic 2 := by unfold G.stringifierOrStatic; infer_instance
instance [Sign c] : Blunt c G.special 4 := by unfold G.special; infer_instance
instance : Blunt '}' G.interfaceMember 73 := by
  unfold G.interfaceMember G.constMember G.attributeInterfaceMember G.constructorInterfaceMember G.operationInterfaceMember
    G.iterableInterfaceMember G.singleTypedIterable G.doubleTypedIterable G.asyncIterableInterfaceMember
    G.singleTypedAsyncIterable G.doubleTypedAsyncIterable G.maplikeInterfaceMember G.setlikeInterfaceMember
    G.stringifierMember
  infer_instance
instance : Blunt '}' G.mixinMember 50 := by
  unfold G.mixinMember G.constMember G.operationMixinMember G.attributeMixinMember G.stringifierMember
  infer_instance
instance : Blunt '}' G.namespaceMember 45 := by
  unfold G.namespaceMember G.constMember G.operationNamespaceMember G.attributeNamespaceMember
  infer_instance
instance : Blunt '}' G.dictionaryMember 41 := by unfold G.dictionaryMember; infer_instance

instance : Lin List.length l (G.braced G.interfaceMembers) [] 38358 :=
  lin_members (k := 19105) (kb := 73) inferInstance inferInstance inferInstance inferInstance inferInstance
instance : Lin List.length l (G.braced G.mixinMembers) [] 8996 :=
  lin_members (k := 4447) (kb := 50) inferInstance inferInstance inferInstance inferInstance inferInstance
instance : Lin List.length l (G.braced G.namespaceMembers) [] 7460 :=
  lin_members (k := 3684) (kb := 45) inferInstance inferInstance inferInstance inferInstance inferInstance
instance : Lin List.length l (G.braced G.dictionaryMembers) [] 2076 :=
  lin_members (k := 996) (kb := 41) inferInstance inferInstance inferInstance inferInstance inferInstance

end Verif.Linear
