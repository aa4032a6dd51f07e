import Verif.Proof.VisitsArg

/-! # Visits of members -/

namespace Verif.Visits
open Nom Spec
open Linear (At Refuse Leafy ahead leaf_suffix leaf_lt ahead_le body_tame Usual consRes_eq leaf_at Brief semi_ahead)

set_option synthInstance.maxSize 2000
set_option synthInstance.maxHeartbeats 400000

variable {α β : Type} {l : Nat} {c : Char}

/-- Parsers that end with a semicolon, the first one in the text that they accept, and look at nothing behind the first one. -/
class Mem (l : Nat) (g : G α) (k : outParam Nat) : Prop where
  mem : ∀ d a, 1 ≤ a → Calls ahead d a → ∀ m s, nest s + l ≤ d → ∀ n x, V m g s n x →
    n ≤ k * a ∧ (m + ahead s < s.length → n = 0) ∧ ∀ r v, x = .ok r v → r.length + ahead s ≤ s.length

instance : Mem l (G.punct .semiColon) 1 := ⟨fun d a ha hc m s hs n x hr => by
  obtain ⟨rfl, rfl⟩ := punct_v hr
  exact ⟨Nat.le_trans (visit_le _ _) (by omega), fun h => visit_zero (by omega), fun r v e => semi_ahead e⟩⟩
instance {g : G α} {f : α → β} {k : Nat} [h : Mem l g k] : Mem l (g >>= fun a => pure (f a)) k := ⟨fun d a ha hc m s hs n x hr => by
  have := Weighed.inv hr
  simp only [Weighed.Inv] at this
  rcases this with ⟨q, u, i, j, h1, h2, rfl⟩ | ⟨e, h1, rfl⟩
  · obtain ⟨h3, h3', h4⟩ := h.mem d a ha hc m s hs _ _ h1
    obtain ⟨rfl, rfl⟩ := Weighed.inv h2
    refine ⟨h3, h3', fun r v e => ?_⟩
    cases e
    exact h4 _ _ rfl
  · obtain ⟨h3, h3', h4⟩ := h.mem d a ha hc m s hs _ _ h1
    exact ⟨h3, h3', fun _ _ e => by cases e⟩⟩
instance {g : G α} {f : α → β} {k : Nat} [h : Mem l g k] : Mem l (G.variant f g) k := by unfold G.variant; infer_instance
instance : Mem l (G.alts ([] : List (G α))) 0 := ⟨fun d a ha hc m s hd n x hr => by
  obtain ⟨rfl, rfl⟩ := Weighed.inv hr
  exact ⟨Nat.zero_le _, fun _ => rfl, fun _ _ e => by cases e⟩⟩
instance {g : G α} {gs : List (G α)} {k k' : Nat} [hg : Mem l g k] [hh : Mem l (G.alts gs) k'] :
    Mem l (G.alts (g :: gs)) (k + k') := ⟨fun d a ha hc m s hd n x hr => by
  have := Weighed.inv (show V m (.orElse g (G.alts gs)) s n x from hr)
  simp only [Weighed.Inv] at this
  have hk : (k + k') * a = k * a + k' * a := Nat.add_mul _ _ _
  rcases this with ⟨r, v, h1, rfl⟩ | ⟨p, q, i, j, h1, h2, rfl⟩ | ⟨e, -, h1, rfl⟩
  · obtain ⟨h3, h4⟩ := hg.mem d a ha hc m s hd _ _ h1
    exact ⟨by omega, h4⟩
  · obtain ⟨h3, h4, -⟩ := hg.mem d a ha hc m s hd _ _ h1
    obtain ⟨h5, h6, h7⟩ := hh.mem d a ha hc m s hd _ _ h2
    exact ⟨by omega, fun h => by rw [h4 h, h6 h], h7⟩
  · obtain ⟨h3, h4⟩ := hg.mem d a ha hc m s hd _ _ h1
    exact ⟨by omega, h4⟩⟩

/-- As `Lin`, without saying where the visits end. -/
class Wide (A : Str → Nat) (l : Nat) (g : G α) (k : outParam Nat) : Prop where
  wide : ∀ d a, 1 ≤ a → Calls A d a → ∀ m s, nest s + l ≤ d → ∀ n x, V m g s n x →
    n ≤ k * a ∧ (m + A s < s.length → n = 0) ∧ ∀ r v, x = .ok r v → r.length + A s = s.length + A r

theorem Lin.wide {A : Str → Nat} {g : G α} {X : List Char} {k : Nat} (h : Lin A l g X k) : Wide A l g k :=
  ⟨fun d a ha hc m s hd n x hr => by
    obtain ⟨h1, h2, h3⟩ := h.lin d a ha hc m s hd n x hr
    exact ⟨h1, h2, fun r v e => (h3 r v e).1⟩⟩

theorem wide_bind {A : Str → Nat} {g : G α} {f : α → G β} {j w : Nat} {st : Bool} {k k' : Nat} (hs : Guarded true g st)
    (ht : Tame l g j w 6) (hg : Wide A l g k) (hf : ∀ a, Wide A j (f a) k') : Wide A l (.bind g f) (k + k') :=
  ⟨fun d a ha hc m s hd n x hr => by
  have := Weighed.inv hr
  simp only [Weighed.Inv] at this
  rcases this with ⟨q, u, i, j, h1, h2, rfl⟩ | ⟨e, h1, rfl⟩
  · obtain ⟨h3, h3', h4⟩ := hg.wide d a ha hc m s hd _ _ h1
    have h5 := h4 _ _ rfl
    have h7 := effect ht hs h1
    obtain ⟨h8, h9, h10⟩ := (hf u).wide d a ha hc m q (by omega) _ _ h2
    refine ⟨by rw [Nat.add_mul]; omega, fun h => ?_, fun r v e => ?_⟩
    · have := h3' h
      have := h9 (by omega)
      omega
    · have := h10 _ _ e
      omega
  · obtain ⟨h3, h3', h4⟩ := hg.wide d a ha hc m s hd _ _ h1
    exact ⟨Nat.le_trans h3 (Nat.mul_le_mul_right _ (by omega)), h3', fun _ _ e => by cases e⟩⟩

theorem mem_bind {g : G α} {f : α → G β} {j w : Nat} {st : Bool} {k k' : Nat} (hs : Guarded true g st)
    (ht : Tame l g j w 6) (hg : Wide ahead l g k) (hf : ∀ a, Mem j (f a) k') : Mem l (.bind g f) (k + k') :=
  ⟨fun d a ha hc m s hd n x hr => by
  have := Weighed.inv hr
  simp only [Weighed.Inv] at this
  rcases this with ⟨q, u, i, j, h1, h2, rfl⟩ | ⟨e, h1, rfl⟩
  · obtain ⟨h3, h3', h4⟩ := hg.wide d a ha hc m s hd _ _ h1
    have h5 := h4 _ _ rfl
    have h7 := effect ht hs h1
    obtain ⟨h8, h9, h10⟩ := (hf u).mem d a ha hc m q (by omega) _ _ h2
    refine ⟨by rw [Nat.add_mul]; omega, fun h => ?_, fun r v e => ?_⟩
    · have := h3' h
      have := h9 (by omega)
      omega
    · have := h10 _ _ e
      omega
  · obtain ⟨h3, h3', h4⟩ := hg.wide d a ha hc m s hd _ _ h1
    exact ⟨Nat.le_trans h3 (Nat.mul_le_mul_right _ (by omega)), h3', fun _ _ e => by cases e⟩⟩

instance {g : G α} {f : α → G β} {j w : Nat} {st : Bool} {X : List Char} {k k' : Nat} [hs : Guarded true g st]
    [ht : Tame l g j w 6] [hg : Lin ahead l g X k] [hf : ∀ a, Mem j (f a) k'] : Mem l (g >>= f) (k + k') :=
  mem_bind hs ht hg.wide hf

instance : Here G.stringifierOrInheritOrStatic := by unfold G.stringifierOrInheritOrStatic; infer_instance
instance : Here G.stringifierOrStatic := by unfold G.stringifierOrStatic; infer_instance
instance : Here G.special := by unfold G.special; infer_instance
instance : Exact G.stringifierOrInheritOrStatic := by unfold G.stringifierOrInheritOrStatic; infer_instance
instance : Exact G.stringifierOrStatic := by unfold G.stringifierOrStatic; infer_instance
instance : Exact G.special := by unfold G.special; infer_instance

section
variable {A : Str → Nat} [Usual A]
instance : Lin A l G.inheritance [] 2 := by unfold G.inheritance; infer_instance
instance : Meas A G.stringifierOrInheritOrStatic := by unfold G.stringifierOrInheritOrStatic; infer_instance
instance : Meas A G.stringifierOrStatic := by unfold G.stringifierOrStatic; infer_instance
instance : Meas A G.special := by unfold G.special; infer_instance
instance : Lin A l (.opt G.stringifierOrInheritOrStatic) [] 3 := lin_of
instance : Lin A l (.opt G.stringifierOrStatic) [] 2 := lin_of
instance : Lin A l (.opt G.special) [] 4 := lin_of
instance : Lin A l (.opt G.ident) [] 1 := lin_of
instance : Lin A l G.constType [] 21 := lin_of
instance : Lin A l G.constValue [] 10 := lin_of
instance : Lin A l (.opt (G.parenthesized G.argumentList)) ['('] 7 := lin_opt inferInstance inferInstance
instance : Lin A l G.attributedTypePair ['<'] 425 := by unfold G.attributedTypePair; infer_instance
instance : Lin A l (G.generics G.attributedType) [] 214 := lin_generics (k := 212)
instance : Lin A l (G.generics G.attributedTypePair) [] 427 := lin_generics (k := 425)
end

instance : Mem l G.constMember 144 := by unfold G.constMember; infer_instance
instance : Mem l G.attributeInterfaceMember 328 := by unfold G.attributeInterfaceMember; infer_instance
instance : Mem l G.constructorInterfaceMember 118 := by unfold G.constructorInterfaceMember; infer_instance
instance : Mem l G.operationInterfaceMember 228 := by unfold G.operationInterfaceMember; infer_instance
instance : Mem l G.singleTypedIterable 325 := by unfold G.singleTypedIterable; infer_instance
instance : Mem l G.doubleTypedIterable 538 := by unfold G.doubleTypedIterable; infer_instance
instance : Mem l G.iterableInterfaceMember 863 := by unfold G.iterableInterfaceMember; infer_instance
instance : Mem l G.singleTypedAsyncIterable 333 := by unfold G.singleTypedAsyncIterable; infer_instance
instance : Mem l G.doubleTypedAsyncIterable 546 := by unfold G.doubleTypedAsyncIterable; infer_instance
instance : Mem l G.asyncIterableInterfaceMember 879 := by unfold G.asyncIterableInterfaceMember; infer_instance
instance : Mem l G.maplikeInterfaceMember 539 := by unfold G.maplikeInterfaceMember; infer_instance
instance : Mem l G.setlikeInterfaceMember 326 := by unfold G.setlikeInterfaceMember; infer_instance
instance : Mem l G.stringifierMember 111 := by unfold G.stringifierMember; infer_instance
instance : Mem l G.interfaceMember 3536 := by unfold G.interfaceMember; infer_instance
instance : Mem l G.operationMixinMember 223 := by unfold G.operationMixinMember; infer_instance
instance : Mem l G.attributeMixinMember 326 := by unfold G.attributeMixinMember; infer_instance
instance : Mem l G.mixinMember 804 := by unfold G.mixinMember; infer_instance
instance : Mem l G.operationNamespaceMember 222 := by unfold G.operationNamespaceMember; infer_instance
instance : Mem l G.attributeNamespaceMember 325 := by unfold G.attributeNamespaceMember; infer_instance
instance : Mem l G.namespaceMember 691 := by unfold G.namespaceMember; infer_instance
instance : Mem l G.dictionaryMember 231 := by unfold G.dictionaryMember; infer_instance

/-! ## Repetitions -/

theorem many_visits {m : Nat} {g : G α} {b N : Nat} {D : Str → Prop}
    (h : ∀ s, nest s ≤ N → ∀ n x, V m g s n x → n ≤ b ∧
      (∀ r v, x = .ok r v → (m < r.length → n = 0) ∧ nest r ≤ nest s) ∧ ∀ e, x = .err e → (m < s.length → n = 0) ∨ D s)
    (M : Nat) : ∀ s : Str, s.length ≤ M → nest s ≤ N → ∀ n x, V m (.many0 g) s n x → n ≤ 2 * b ∧ (s.length ≤ m → n ≤ b) ∧
      ∀ r v, x = .ok r v → (m < r.length → n = 0) ∨ D r := by
  induction M with
  | zero =>
    intro s hm hs n x hr
    have := Weighed.inv hr
    simp only [Weighed.Inv] at this
    rcases this with ⟨r, v, i, j, y, h1, h2, h3, rfl, rfl⟩ | ⟨v, h1, rfl⟩ | ⟨p, t, h1, rfl⟩ | ⟨e, -, h1, rfl⟩
    · have := suffix_lt h1.suffix h2
      omega
    · have := (h s hs _ _ h1).1
      exact ⟨by omega, fun _ => this, fun _ _ e => by cases e⟩
    · obtain ⟨h4, -, h5⟩ := h s hs _ _ h1
      refine ⟨by omega, fun _ => h4, fun r v e => ?_⟩
      cases e
      exact h5 _ rfl
    · have := (h s hs _ _ h1).1
      exact ⟨by omega, fun _ => this, fun _ _ e => by cases e⟩
  | succ M ih =>
    intro s hm hs n x hr
    have := Weighed.inv hr
    simp only [Weighed.Inv] at this
    rcases this with ⟨r, v, i, j, y, h1, h2, h3, rfl, rfl⟩ | ⟨v, h1, rfl⟩ | ⟨p, t, h1, rfl⟩ | ⟨e, -, h1, rfl⟩
    · obtain ⟨h4, h5, -⟩ := h s hs _ _ h1
      obtain ⟨h6, h7⟩ := h5 _ _ rfl
      have h8 := suffix_lt h1.suffix h2
      obtain ⟨h9, h10, h11⟩ := ih r (by omega) (by omega) _ _ h3
      refine ⟨?_, fun h12 => ?_, fun r' v' e => ?_⟩
      · by_cases h12 : m < r.length
        · have := h6 h12
          omega
        · have := h10 (by omega)
          omega
      · have := h3.late (by omega)
        omega
      · obtain ⟨u, h12⟩ := consRes_eq e
        subst h12
        have := h3.suffix.length_le
        refine (h11 _ _ rfl).imp_left fun h13 h14 => ?_
        have := h6 (by omega)
        have := h13 h14
        omega
    · have := (h s hs _ _ h1).1
      exact ⟨by omega, fun _ => this, fun _ _ e => by cases e⟩
    · obtain ⟨h4, -, h5⟩ := h s hs _ _ h1
      refine ⟨by omega, fun _ => h4, fun r v e => ?_⟩
      cases e
      exact h5 _ rfl
    · have := (h s hs _ _ h1).1
      exact ⟨by omega, fun _ => this, fun _ _ e => by cases e⟩

theorem lin_members {g : G α} {k w : Nat} (hs : Guarded true g true) (ht : Tame l g l w 5) (ht6 : Tame l g l w 6)
    (hg : Mem l g k) (hb : Blunt '}' g) :
    Lin List.length l (G.braced (.many0 g)) [] (2 * k + 2) := by
  refine lin_enclosed (z := '}') rfl (.many0 hs) (j := l) inferInstance (.many0 hs ht) fun d a ha hc m s hd n x hr => ?_
  have h1 : ∀ s, nest s ≤ d - l → ∀ n x, V m g s n x → n ≤ k * a ∧
      (∀ r v, x = .ok r v → (m < r.length → n = 0) ∧ nest r ≤ nest s) ∧
      ∀ e, x = .err e → (m < s.length → n = 0) ∨ ¬ At '}' s := fun s hs' n x hr => by
    obtain ⟨h1, h2, h3⟩ := hg.mem d a ha hc.ahead m s (by omega) _ _ hr
    refine ⟨h1, fun r v e => ?_, fun e h => ?_⟩
    · subst e
      have h5 := h3 _ _ rfl
      have h7 := effect ht6 hs hr
      exact ⟨fun h => h2 (by omega), by omega⟩
    · by_cases h5 : At '}' s
      · exact .inl (hb.blunt _ _ _ _ h5 hr).1
      · exact .inr h5
  obtain ⟨h2, -, h3⟩ := many_visits h1 s.length s (Nat.le_refl _) (by omega) n x hr
  rw [← Nat.mul_assoc] at h2
  exact ⟨h2, fun h => by omega, fun r v e => ⟨Nat.add_comm _ _, h3 r v e⟩⟩

instance [Linear.Sign c] [Refuse c (.punct .openParen)] : Blunt c G.returnType := by unfold G.returnType G.returnTypeOf; infer_instance
instance [Linear.Sign c] : Blunt c G.stringifierOrInheritOrStatic := by unfold G.stringifierOrInheritOrStatic; infer_instance
instance [Linear.Sign c] : Blunt c G.stringifierOrStatic := by unfold G.stringifierOrStatic; infer_instance
instance [Linear.Sign c] : Blunt c G.special := by unfold G.special; infer_instance
instance : Blunt '}' G.interfaceMember := by
  unfold G.interfaceMember G.constMember G.attributeInterfaceMember G.constructorInterfaceMember G.operationInterfaceMember
    G.iterableInterfaceMember G.singleTypedIterable G.doubleTypedIterable G.asyncIterableInterfaceMember
    G.singleTypedAsyncIterable G.doubleTypedAsyncIterable G.maplikeInterfaceMember G.setlikeInterfaceMember
    G.stringifierMember
  infer_instance
instance : Blunt '}' G.mixinMember := by
  unfold G.mixinMember G.constMember G.operationMixinMember G.attributeMixinMember G.stringifierMember
  infer_instance
instance : Blunt '}' G.namespaceMember := by
  unfold G.namespaceMember G.constMember G.operationNamespaceMember G.attributeNamespaceMember
  infer_instance
instance : Blunt '}' G.dictionaryMember := by unfold G.dictionaryMember; infer_instance

instance : Lin List.length l (G.braced G.interfaceMembers) [] 7074 :=
  lin_members (k := 3536) inferInstance inferInstance inferInstance inferInstance inferInstance
instance : Lin List.length l (G.braced G.mixinMembers) [] 1610 :=
  lin_members (k := 804) inferInstance inferInstance inferInstance inferInstance inferInstance
instance : Lin List.length l (G.braced G.namespaceMembers) [] 1384 :=
  lin_members (k := 691) inferInstance inferInstance inferInstance inferInstance inferInstance
instance : Lin List.length l (G.braced G.dictionaryMembers) [] 464 :=
  lin_members (k := 231) inferInstance inferInstance inferInstance inferInstance inferInstance

end Verif.Visits
