import Verif.Proof.LinearMember

/-! # Costs of definitions and documents -/

namespace Verif.Linear
open Nom Spec

set_option synthInstance.maxSize 2000
set_option synthInstance.maxHeartbeats 400000

variable {α β : Type} {l : Nat} {c : Char}

/-! ## Semicolons -/

theorem leaf_weak {x : Leaf α} {s r : Str} {v : α} (h : charLeaf α x s = .ok r v) :
    r.length + ahead s ≤ s.length + ahead r := by
  have key : ∀ [Inner x], r.length + ahead s ≤ s.length + ahead r := fun {_} => Nat.le_of_eq (leaf_ahead h)
  cases x with
  | punct p =>
    by_cases hp : p = .semiColon
    · subst hp
      have := semi_ahead h
      omega
    · have := inner_punct hp
      exact key
  | _ => exact key

/-- What is consumed reaches at least to the next semicolon, or what is left before it is still there. -/
theorem weak {g : G α} {s : Str} {n : Nat} {x : Res Char α} (h : Runs charLeaf g s n x) :
    ∀ r v, x = .ok r v → r.length + ahead s ≤ s.length + ahead r := by
  refine Runs.rec
    (motive_1 := fun {α} g s n x _ => ∀ r v, x = .ok r v → r.length + ahead s ≤ s.length + ahead r)
    (motive_2 := fun {α β} sep g s n x _ => ∀ r v, x = .ok r v → r.length + ahead s ≤ s.length + ahead r)
    ?_ ?_ ?_ ?_ ?_ ?_ ?_ ?_ ?_ ?_ ?_ ?_ ?_ ?_ ?_ ?_ ?_ ?_ ?_ ?_ ?_ ?_ ?_ ?_ ?_ ?_ ?_ ?_ ?_ ?_ h
  case refine_2 => intro α x s r v h; exact leaf_weak h
  case refine_3 =>
    intro α β g f s r a x c d _ _ h1 h2 q u e
    have := h1 _ _ rfl
    have := h2 _ _ e
    omega
  case refine_15 =>
    intro α g s r a x c d _ _ _ h1 h2 q u e
    obtain ⟨as, e, -⟩ := consRes_ok.1 e
    have := h1 _ _ rfl
    have := h2 _ _ e
    omega
  case refine_19 =>
    intro α β sep g s r a x c d _ _ _ h1 h2 q u e
    obtain ⟨as, e, -⟩ := consRes_ok.1 e
    have := h1 _ _ rfl
    have := h2 _ _ e
    omega
  case refine_22 =>
    intro α β sep g s r a x c d _ _ _ h1 h2 q u e
    obtain ⟨as, e, -⟩ := consRes_ok.1 e
    have := h1 _ _ rfl
    have := h2 _ _ e
    omega
  case refine_23 => intro α N s x c _ h1; exact h1
  case refine_30 =>
    intro α β sep g s r q b a x c d e _ _ _ _ _ h1 h2 h3 q u e
    obtain ⟨as, e, -⟩ := consRes_ok.1 e
    have := h1 _ _ rfl
    have := h2 _ _ rfl
    have := h3 _ _ e
    omega
  all_goals grind

/-- The parser consumes a semicolon. -/
class Ends (g : G α) : Prop where
  ends : ∀ s n r v, Runs charLeaf g s n (.ok r v) → r.length + ahead s ≤ s.length

instance : Ends (G.punct .semiColon) := ⟨fun s n r v h => semi_ahead (punct_runs h).2.symm⟩
instance {g : G α} {f : α → β} [h : Ends g] : Ends (g >>= fun a => pure (f a)) := ⟨fun s n r v hr => by
  obtain ⟨q, u, i, j, h1, h2, -⟩ := bind_ok hr
  rw [ret_ok h2]
  exact h.ends _ _ _ _ h1⟩
instance {g : G α} {f : α → G β} [h : ∀ a, Ends (f a)] : Ends (g >>= f) := ⟨fun s n r v hr => by
  obtain ⟨q, u, i, j, h1, h2, -⟩ := bind_ok hr
  have := weak h1 _ _ rfl
  have := (h u).ends _ _ _ _ h2
  omega⟩

/-! ## Definitions that are told apart by what comes before the members -/

/-- The text begins with the keyword, and what follows is as said. -/
def Kws (k : Kw) (P : Str → Prop) (s : Str) : Prop := ∃ q u, charLeaf _ (.kw k) s = .ok q u ∧ P q
/-- The text begins with a name, and what follows is as said. -/
def Idn (P : Str → Prop) (s : Str) : Prop := ∃ q v, charLeaf _ .ident s = .ok q v ∧ P q
/-- A colon or a brace. -/
def Brace (s : Str) : Prop := At ':' s ∨ At '{' s

/-- The parser does not accept such texts. -/
class Bars (P : Str → Prop) (g : G α) : Prop where
  bars : ∀ s n r v, P s → ¬ Runs charLeaf g s n (.ok r v)

class Apart (k k' : Kw) : Prop where
  apart : k.text ≠ k'.text

instance : Apart .callback .interface := ⟨by decide⟩
instance : Apart .callback .«namespace» := ⟨by decide⟩
instance : Apart .callback .dictionary := ⟨by decide⟩
instance : Apart .callback .«partial» := ⟨by decide⟩
instance : Apart .callback .enum := ⟨by decide⟩
instance : Apart .callback .typedef := ⟨by decide⟩
instance : Apart .interface .«namespace» := ⟨by decide⟩
instance : Apart .interface .dictionary := ⟨by decide⟩
instance : Apart .interface .«partial» := ⟨by decide⟩
instance : Apart .interface .enum := ⟨by decide⟩
instance : Apart .interface .typedef := ⟨by decide⟩
instance : Apart .interface .includes := ⟨by decide⟩
instance : Apart .interface .implements := ⟨by decide⟩
instance : Apart .mixin .includes := ⟨by decide⟩
instance : Apart .mixin .implements := ⟨by decide⟩
instance : Apart .«namespace» .dictionary := ⟨by decide⟩
instance : Apart .«namespace» .«partial» := ⟨by decide⟩
instance : Apart .«namespace» .enum := ⟨by decide⟩
instance : Apart .«namespace» .typedef := ⟨by decide⟩
instance : Apart .«namespace» .includes := ⟨by decide⟩
instance : Apart .«namespace» .implements := ⟨by decide⟩
instance : Apart .dictionary .«namespace» := ⟨by decide⟩
instance : Apart .dictionary .«partial» := ⟨by decide⟩
instance : Apart .dictionary .enum := ⟨by decide⟩
instance : Apart .dictionary .typedef := ⟨by decide⟩
instance : Apart .dictionary .includes := ⟨by decide⟩
instance : Apart .dictionary .implements := ⟨by decide⟩
instance : Apart .«partial» .enum := ⟨by decide⟩
instance : Apart .«partial» .typedef := ⟨by decide⟩

variable {P : Str → Prop} {k k' : Kw}

instance {f : Unit → G β} [h : Apart k k'] : Bars (Kws k P) (G.kw k' >>= f) := ⟨fun s n r v ⟨q, u, h1, _⟩ hr => by
  obtain ⟨q, u, i, j, h3, -, -⟩ := bind_ok hr
  exact h.apart (kw_kw h1 (kw_runs h3).2.symm).1⟩
instance {f : Unit → G β} [h : ∀ a, Bars P (f a)] : Bars (Kws k P) (G.kw k >>= f) := ⟨fun s n r v ⟨q, u, h1, h2⟩ hr => by
  obtain ⟨q', u', i, j, h3, h4, -⟩ := bind_ok hr
  obtain ⟨-, rfl⟩ := kw_kw h1 (kw_runs h3).2.symm
  exact (h u').bars _ _ _ _ h2 h4⟩
instance {f : Str → G β} [h : ∀ a, Bars P (f a)] : Bars (Kws k P) (G.ident >>= f) := ⟨fun s n r v ⟨q, u, h1, h2⟩ hr => by
  obtain ⟨q', u', i, j, h3, h4, -⟩ := bind_ok hr
  obtain rfl := kw_ident h1 (ident_runs h3).2.symm
  exact (h u').bars _ _ _ _ h2 h4⟩
instance {f : Unit → G β} [h : ∀ a, Bars P (f a)] : Bars (Idn P) (G.kw k >>= f) := ⟨fun s n r v ⟨q, u, h1, h2⟩ hr => by
  obtain ⟨q', u', i, j, h3, h4, -⟩ := bind_ok hr
  obtain rfl := kw_ident (kw_runs h3).2.symm h1
  exact (h u').bars _ _ _ _ h2 h4⟩
instance {f : Str → G β} : Bars Brace (G.ident >>= f) := ⟨fun s n r v h hr => by
  obtain ⟨q, u, i, j, h3, -, -⟩ := bind_ok hr
  rcases h with h | h
  · exact stop_of ':' h _ h3
  · exact stop_of '{' h _ h3⟩

/-- No definition of the kind has such a text after its attributes. -/
class Barred (P : Str → Prop) (g : G α) : Prop where
  barred : ∀ s m q u n r v, Runs charLeaf G.attrs s m (.ok q u) → P q → ¬ Runs charLeaf g s n (.ok r v)

instance {g : G α} : Barred (fun _ => False) g := ⟨fun _ _ _ _ _ _ _ _ h => h.elim⟩
instance {f : Attrs → G β} [h : ∀ a, Bars P (f a)] : Barred P (G.attrs >>= f) := ⟨fun s m q u n r v h1 h2 hr => by
  obtain ⟨q', u', i, j, h3, h4, -⟩ := bind_ok hr
  obtain ⟨rfl, h5⟩ := Verif.Runs.det h1 _ _ h3
  cases h5
  exact (h u).bars _ _ _ _ h2 h4⟩
instance : Barred P (G.alts ([] : List (G α))) := ⟨fun s m q u n r v h1 h2 hr => by
  obtain ⟨-, h⟩ := Runs.inv hr
  cases h⟩
instance {g : G α} {gs : List (G α)} [h : Barred P g] [h' : Barred P (G.alts gs)] : Barred P (G.alts (g :: gs)) :=
  ⟨fun s m q u n r v h1 h2 hr => by
  rcases or_ok hr with ⟨m, h3⟩ | ⟨m, h3⟩
  · exact h.barred _ _ _ _ _ _ _ h1 h2 h3
  · exact h'.barred _ _ _ _ _ _ _ h1 h2 h3⟩

/-- The parser fails at once, except on such texts. -/
class Deeper (P : outParam (Str → Prop)) (g : G α) (k : outParam Nat) : Prop where
  deeper : ∀ s n e, Runs charLeaf g s n (.err e) → n ≤ k ∨ P s

instance {f : Unit → G β} {j : Nat} [h : ∀ a, Deeper P (f a) j] : Deeper (Kws k P) (G.kw k >>= f) (j + 1) := ⟨fun s n e hr => by
  rcases bind_err hr with ⟨q, u, i, j', h1, h2, rfl⟩ | h1
  · obtain ⟨rfl, e⟩ := kw_runs h1
    rcases (h u).deeper _ _ _ h2 with h3 | h3
    · exact .inl (by omega)
    · exact .inr ⟨q, u, e.symm, h3⟩
  · have := (kw_runs h1).1
    exact .inl (by omega)⟩
instance {f : Str → G β} {j : Nat} [h : ∀ a, Deeper P (f a) j] : Deeper (Idn P) (G.ident >>= f) (j + 1) := ⟨fun s n e hr => by
  rcases bind_err hr with ⟨q, u, i, j', h1, h2, rfl⟩ | h1
  · obtain ⟨rfl, e⟩ := ident_runs h1
    rcases (h u).deeper _ _ _ h2 with h3 | h3
    · exact .inl (by omega)
    · exact .inr ⟨q, u, e.symm, h3⟩
  · have := (ident_runs h1).1
    exact .inl (by omega)⟩
instance {g : G α} : Opens '{' (G.braced g) := opens_bind rfl
instance {g : G α} {f : α → G β} : Deeper Brace (G.braced g >>= f) 1 := ⟨fun s n e hr =>
  ((inferInstance : Opens '{' (G.braced g >>= f)).opens _ _ _ hr).elim (fun h => .inr (.inr h)) fun h => .inl h.1⟩
instance : Brief G.inheritance 2 := by
  unfold G.inheritance; infer_instance
instance {f : Option Str → G β} {j : Nat} [h : ∀ a, Deeper Brace (f a) j] : Deeper Brace (.opt G.inheritance >>= f) (j + 2) :=
  ⟨fun s n e hr => by
  rcases bind_err hr with ⟨q, u, i, j', h1, h2, rfl⟩ | h1
  · have h3 := (inferInstance : Brief (.opt G.inheritance) 2).brief _ _ _ h1
    have := Runs.inv h1
    simp only [Runs.Inv] at this
    rcases this with ⟨r', v', h18, h19⟩ | ⟨p, t, h18, h19⟩ | ⟨e, -, h18, h19⟩
    · obtain ⟨q', u', i', j', h4, -, -⟩ := bind_ok h18
      exact .inr (.inl (leaf_at rfl (punct_runs h4).2.symm))
    · cases h19
      exact ((h _).deeper _ _ _ h2).imp_left fun h => by omega
    · cases h19
  · have := (inferInstance : Brief (.opt G.inheritance) 2).brief _ _ _ h1
    exact .inl (by omega)⟩

/-! ## The alternatives -/

/-- Costs of a kind of definition. -/
class Def (g : G α) (k : outParam Nat) (P : outParam (Str → Prop)) : Prop where
  cost : ∀ d a, 1 ≤ a → Calls List.length d a → ∀ s, nest s ≤ d → ∀ n x, Runs charLeaf g s n x →
    n ≤ k * a * (s.length + 1) ∧
    (∀ r v, x = .ok r v → n ≤ k * a * (s.length - r.length + 1) ∧ r.length + ahead s ≤ s.length ∧ r <:+ s) ∧
    ∀ e, x = .err e → n ≤ k * a * (ahead s + 1) ∨ ∃ m q v, Runs charLeaf G.attrs s m (.ok q v) ∧ P q

instance {g : G α} {k : Nat} [h : Mem 0 g k] : Def g k (fun _ => False) := ⟨fun d a ha hc s hs n x hr => by
  obtain ⟨h1, h2⟩ := h.mem d a ha hc.ahead s hs _ _ hr
  have h3 := ahead_le s
  have h4 : ∀ p, ahead s ≤ p → n ≤ k * a * (p + 1) := fun p hp => Nat.le_trans h1 (Nat.mul_le_mul_left _ (by omega))
  refine ⟨h4 _ h3, fun r v e => ?_, fun e h => .inl h1⟩
  obtain ⟨h5, h6⟩ := h2 _ _ e
  exact ⟨h4 _ (by omega), h5, h6⟩⟩

instance {f : Attrs → G β} {k j : Nat} [h : Lin List.length 0 (G.attrs >>= f) [] k] [he : Ends (G.attrs >>= f)]
    [hd : ∀ a, Deeper P (f a) j] : Def (G.attrs >>= f) (k + 759 + j) P := ⟨fun d a ha hc s hs n x hr => by
  obtain ⟨h1, h2⟩ := h.lin d a ha hc s hs _ _ hr
  have h0 : ∀ p, k * a * (p + 1) ≤ (k + 759 + j) * a * (p + 1) := fun p =>
    Nat.mul_le_mul_right _ (Nat.mul_le_mul_right _ (by omega))
  refine ⟨Nat.le_trans h1 (h0 _), fun r v e => ?_, fun e h => ?_⟩
  · subst e
    obtain ⟨-, h3, h4⟩ := h2 _ _ rfl
    refine ⟨Nat.le_trans (h4.resolve_right fun ⟨_, h, _⟩ => nomatch h) (h0 _), he.ends _ _ _ _ hr, h3⟩
  · subst h
    have h3 : ∀ n' x', Runs charLeaf G.attrs s n' x' → n' ≤ 759 * a * (ahead s + 1) := fun n' x' hr =>
      ((inferInstance : Lin ahead 0 G.attrs ['['] 759).lin d a ha hc.ahead s hs _ _ hr).total
    have h4 : (k + 759 + j) * a * (ahead s + 1) = k * a * (ahead s + 1) + 759 * a * (ahead s + 1) + j * a * (ahead s + 1) := by
      rw [Nat.add_mul, Nat.add_mul, Nat.add_mul, Nat.add_mul]
    have h5 : j ≤ j * a * (ahead s + 1) := Nat.le_trans (Nat.le_mul_of_pos_right _ ha) (Nat.le_mul_of_pos_right _ (by omega))
    rcases bind_err hr with ⟨q, u, i, j', h6, h7, rfl⟩ | h6
    · have := h3 _ _ h6
      rcases (hd u).deeper _ _ _ h7 with h8 | h8
      · exact .inl (by omega)
      · exact .inr ⟨_, _, _, h6, h8⟩
    · have := h3 _ _ h6
      exact .inl (by omega)⟩

/-- Costs of a choice of definitions. -/
class Defs (g : G α) (k : outParam Nat) : Prop where
  cost : ∀ d a, 1 ≤ a → Calls List.length d a → ∀ s, nest s ≤ d → ∀ n x, Runs charLeaf g s n x →
    n ≤ k * a * (s.length + 1) ∧
    ∀ r v, x = .ok r v → n ≤ k * a * (s.length - r.length + 1) ∧ r.length + ahead s ≤ s.length ∧ r <:+ s

instance : Defs (G.alts ([] : List (G α))) 0 := ⟨fun d a ha hc s hs n x hr => by
  obtain ⟨rfl, rfl⟩ := Runs.inv hr
  exact ⟨Nat.zero_le _, fun _ _ e => by cases e⟩⟩

instance {g : G α} {gs : List (G α)} {k j : Nat} [hg : Def g k P] [hh : Defs (G.alts gs) j] [hb : Barred P (G.alts gs)] :
    Defs (G.alts (g :: gs)) (k + j) := ⟨fun d a ha hc s hs n x hr => by
  have h0 : ∀ p, (k + j) * a * (p + 1) = k * a * (p + 1) + j * a * (p + 1) := fun p => by rw [Nat.add_mul, Nat.add_mul]
  have h00 : ∀ p, k * a * (p + 1) ≤ (k + j) * a * (p + 1) := fun p => by rw [h0]; omega
  have := Runs.inv (show Runs charLeaf (.orElse g (G.alts gs)) s n x from hr)
  simp only [Runs.Inv] at this
  rcases this with ⟨r, v, h1, rfl⟩ | ⟨p, q, i, i', h1, h2, rfl⟩ | ⟨e, -, h1, rfl⟩
  · obtain ⟨h2, h3, -⟩ := hg.cost d a ha hc s hs _ _ h1
    refine ⟨Nat.le_trans h2 (h00 _), fun r v e => ?_⟩
    obtain ⟨h4, h5, h6⟩ := h3 _ _ e
    exact ⟨Nat.le_trans h4 (h00 _), h5, h6⟩
  · obtain ⟨h3, -, h4⟩ := hg.cost d a ha hc s hs _ _ h1
    obtain ⟨h5, h6⟩ := hh.cost d a ha hc s hs _ _ h2
    refine ⟨by rw [h0]; omega, fun r v e => ?_⟩
    obtain ⟨h7, h8, h9⟩ := h6 _ _ e
    subst e
    refine ⟨?_, h8, h9⟩
    rcases h4 _ rfl with h10 | ⟨m, q, u, h10, h11⟩
    · have : k * a * (ahead s + 1) ≤ k * a * (s.length - r.length + 1) := Nat.mul_le_mul_left _ (by omega)
      rw [h0]
      omega
    · exact (hb.barred _ _ _ _ _ _ _ h10 h11 h2).elim
  · exact ⟨Nat.le_trans (hg.cost d a ha hc s hs _ _ h1).1 (h00 _), fun _ _ e => by cases e⟩⟩

/-! ## The kinds of definitions -/

instance [Usual A] : Meas A G.inheritance := by
  unfold G.inheritance; infer_instance
instance [Usual A] : Lin A l (.opt G.inheritance) [] 2 := lin_of
instance [Usual A] : Lin A l (.opt (G.punct .comma)) [] 1 := lin_of
instance [Usual A] : Lin A l (.separatedNonemptyList (G.punct .comma) G.stringLit) [] 6 :=
  (lin_briefs (g := G.stringLit) (sep := G.punct .comma) (k := 1) (ks := 1) (st := true) (st' := true) inferInstance inferInstance inferInstance inferInstance inferInstance inferInstance
    inferInstance inferInstance).2
instance : Guarded true (.separatedNonemptyList (G.punct .comma) G.stringLit) true :=
  .separatedNonemptyList (st := true) (st' := true) inferInstance inferInstance
instance : Tame l (.separatedNonemptyList (G.punct .comma) G.stringLit) l 2 6 :=
  .separatedNonemptyList (w := 1) (w' := 1) (k := 5) (st := true) (st' := true) inferInstance inferInstance inferInstance
    inferInstance
instance [Usual A] : Lin A l G.enumValueList [] 7 := by
  unfold G.enumValueList G.punctuatedNonEmpty
  infer_instance

instance [Usual A] : Lin A l (G.braced G.enumValueList) [] 9 := by
  unfold G.braced; infer_instance

instance : Mem l G.callbackDefinition 1152 := by
  unfold G.callbackDefinition; infer_instance
instance : Def G.callbackInterfaceDefinition 39888 (Kws .callback (Kws .interface (Idn Brace))) := by
  unfold G.callbackInterfaceDefinition; infer_instance
instance : Def G.interfaceDefinition 39886 (Kws .interface (Idn Brace)) := by
  unfold G.interfaceDefinition; infer_instance
instance : Def G.interfaceMixinDefinition 10522 (Kws .interface (Kws .mixin (Idn Brace))) := by
  unfold G.interfaceMixinDefinition; infer_instance
instance : Def G.namespaceDefinition 8984 (Kws .namespace (Idn Brace)) := by
  unfold G.namespaceDefinition; infer_instance
instance : Def G.dictionaryDefinition 3604 (Kws .dictionary (Idn Brace)) := by
  unfold G.dictionaryDefinition; infer_instance
instance : Def G.partialInterfaceDefinition 39884 (Kws .partial (Kws .interface (Idn Brace))) := by
  unfold G.partialInterfaceDefinition; infer_instance
instance : Def G.partialInterfaceMixinDefinition 10524 (Kws .partial (Kws .interface (Kws .mixin (Idn Brace)))) := by
  unfold G.partialInterfaceMixinDefinition; infer_instance
instance : Def G.partialDictionaryDefinition 3602 (Kws .partial (Kws .dictionary (Idn Brace))) := by
  unfold G.partialDictionaryDefinition; infer_instance
instance : Def G.partialNamespaceDefinition 8986 (Kws .partial (Kws .namespace (Idn Brace))) := by
  unfold G.partialNamespaceDefinition; infer_instance
instance : Mem l G.enumDefinition 771 := by
  unfold G.enumDefinition; infer_instance
instance : Mem l G.typedefDefinition 1739 := by
  unfold G.typedefDefinition; infer_instance
instance : Mem l G.includesStatementDefinition 763 := by
  unfold G.includesStatementDefinition; infer_instance
instance : Mem l G.implementsDefinition 763 := by
  unfold G.implementsDefinition; infer_instance

instance : Barred (Kws .callback (Kws .interface (Idn Brace))) (G.alts [G.interfaceDefinition,
    G.interfaceMixinDefinition, G.namespaceDefinition, G.dictionaryDefinition, G.partialInterfaceDefinition,
    G.partialInterfaceMixinDefinition, G.partialDictionaryDefinition, G.partialNamespaceDefinition, G.enumDefinition,
    G.typedefDefinition, G.includesStatementDefinition, G.implementsDefinition]) := by
  unfold G.interfaceDefinition G.interfaceMixinDefinition G.namespaceDefinition G.dictionaryDefinition
    G.partialInterfaceDefinition G.partialInterfaceMixinDefinition G.partialDictionaryDefinition
    G.partialNamespaceDefinition G.enumDefinition G.typedefDefinition G.includesStatementDefinition
    G.implementsDefinition
  infer_instance
instance : Barred (Kws .interface (Idn Brace)) (G.alts [G.interfaceMixinDefinition, G.namespaceDefinition,
    G.dictionaryDefinition, G.partialInterfaceDefinition, G.partialInterfaceMixinDefinition,
    G.partialDictionaryDefinition, G.partialNamespaceDefinition, G.enumDefinition, G.typedefDefinition,
    G.includesStatementDefinition, G.implementsDefinition]) := by
  unfold G.interfaceMixinDefinition G.namespaceDefinition G.dictionaryDefinition G.partialInterfaceDefinition
    G.partialInterfaceMixinDefinition G.partialDictionaryDefinition G.partialNamespaceDefinition G.enumDefinition
    G.typedefDefinition G.includesStatementDefinition G.implementsDefinition
  infer_instance
instance : Barred (Kws .interface (Kws .mixin (Idn Brace))) (G.alts [G.namespaceDefinition, G.dictionaryDefinition,
    G.partialInterfaceDefinition, G.partialInterfaceMixinDefinition, G.partialDictionaryDefinition,
    G.partialNamespaceDefinition, G.enumDefinition, G.typedefDefinition, G.includesStatementDefinition,
    G.implementsDefinition]) := by
  unfold G.namespaceDefinition G.dictionaryDefinition G.partialInterfaceDefinition G.partialInterfaceMixinDefinition
    G.partialDictionaryDefinition G.partialNamespaceDefinition G.enumDefinition G.typedefDefinition
    G.includesStatementDefinition G.implementsDefinition
  infer_instance
instance : Barred (Kws .namespace (Idn Brace)) (G.alts [G.dictionaryDefinition, G.partialInterfaceDefinition,
    G.partialInterfaceMixinDefinition, G.partialDictionaryDefinition, G.partialNamespaceDefinition, G.enumDefinition,
    G.typedefDefinition, G.includesStatementDefinition, G.implementsDefinition]) := by
  unfold G.dictionaryDefinition G.partialInterfaceDefinition G.partialInterfaceMixinDefinition
    G.partialDictionaryDefinition G.partialNamespaceDefinition G.enumDefinition G.typedefDefinition
    G.includesStatementDefinition G.implementsDefinition
  infer_instance
instance : Barred (Kws .dictionary (Idn Brace)) (G.alts [G.partialInterfaceDefinition,
    G.partialInterfaceMixinDefinition, G.partialDictionaryDefinition, G.partialNamespaceDefinition, G.enumDefinition,
    G.typedefDefinition, G.includesStatementDefinition, G.implementsDefinition]) := by
  unfold G.partialInterfaceDefinition G.partialInterfaceMixinDefinition G.partialDictionaryDefinition
    G.partialNamespaceDefinition G.enumDefinition G.typedefDefinition G.includesStatementDefinition
    G.implementsDefinition
  infer_instance
instance : Barred (Kws .partial (Kws .interface (Idn Brace))) (G.alts [G.partialInterfaceMixinDefinition,
    G.partialDictionaryDefinition, G.partialNamespaceDefinition, G.enumDefinition, G.typedefDefinition,
    G.includesStatementDefinition, G.implementsDefinition]) := by
  unfold G.partialInterfaceMixinDefinition G.partialDictionaryDefinition G.partialNamespaceDefinition G.enumDefinition
    G.typedefDefinition G.includesStatementDefinition G.implementsDefinition
  infer_instance
instance : Barred (Kws .partial (Kws .interface (Kws .mixin (Idn Brace)))) (G.alts [G.partialDictionaryDefinition,
    G.partialNamespaceDefinition, G.enumDefinition, G.typedefDefinition, G.includesStatementDefinition,
    G.implementsDefinition]) := by
  unfold G.partialDictionaryDefinition G.partialNamespaceDefinition G.enumDefinition G.typedefDefinition
    G.includesStatementDefinition G.implementsDefinition
  infer_instance
instance : Barred (Kws .partial (Kws .dictionary (Idn Brace))) (G.alts [G.partialNamespaceDefinition, G.enumDefinition,
    G.typedefDefinition, G.includesStatementDefinition, G.implementsDefinition]) := by
  unfold G.partialNamespaceDefinition G.enumDefinition G.typedefDefinition G.includesStatementDefinition G.implementsDefinition
  infer_instance
instance : Barred (Kws .partial (Kws .namespace (Idn Brace))) (G.alts [G.enumDefinition, G.typedefDefinition,
    G.includesStatementDefinition, G.implementsDefinition]) := by
  unfold G.enumDefinition G.typedefDefinition G.includesStatementDefinition G.implementsDefinition
  infer_instance

instance : Defs G.definition 171068 := by
  unfold G.definition; infer_instance

/-- **Cost of a document.** -/
theorem document_lin (d : Nat) {s : Str} (hs : nest s ≤ d) {n : Nat} {x : Res Char (List Definition)}
    (hr : Runs charLeaf G.definitions s n x) : n ≤ 342136 * 3752 ^ d * (s.length + 1) := by
  have ha : 1 ≤ 3752 ^ d := Nat.pos_of_ne_zero (by simp)
  refine Nat.le_trans (many_lin (g := G.definition) (b := 171068 * 3752 ^ d) (N := d) (D := fun _ => True)
    (fun s hs n x hr => ?_) s.length s (Nat.le_refl _) hs n x hr).1 ?_
  · have h0 : ∀ r v, x = .ok r v → nest r ≤ nest s := fun r v e => by
      subst e
      have := (inferInstance : Tame 0 G.definition 0 7514 5).effect' body_tame
        (inferInstance : Guarded true G.definition true) hr
      omega
    obtain ⟨h1, h2⟩ := (inferInstance : Defs G.definition 171068).cost d _ ha (calls d) s hs n x hr
    refine ⟨h1, fun r v e => ?_, fun _ _ => .inr trivial⟩
    obtain ⟨h3, -, h4⟩ := h2 r v e
    exact ⟨h3, h4, h0 r v e⟩
  · rw [← Nat.mul_assoc, Nat.mul_succ]
    exact Nat.add_le_add_left (Nat.mul_le_mul_right _ (by omega)) _

end Verif.Linear
