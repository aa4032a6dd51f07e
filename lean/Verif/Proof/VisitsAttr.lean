import Verif.Proof.VisitsType

/-! # Visits of extended attributes -/

namespace Verif.Visits
open Nom Spec
open Linear (At Refuse Leafy ahead leaf_suffix leaf_lt ahead_le body_tame Usual consRes_eq leaf_at Generic Sticky kw_kw kw_ident Brief
  string_at bind_ok or_ok alts_ok ret_ok after_assign after_ident ident_runs punct_runs)

set_option synthInstance.maxSize 2000
set_option synthInstance.maxHeartbeats 400000

variable {α β : Type} {A : Str → Nat} {l m : Nat} {c : Char} {w : Kw}

theorem ident_v {s : Str} {n : Nat} {x : Res Char Str} (h : V m G.ident s n x) :
    n = visit m s ∧ x = charLeaf _ .ident s := Weighed.inv h
theorem kw_v {k : Kw} {s : Str} {n : Nat} {x : Res Char Unit} (h : V m (G.kw k) s n x) :
    n = visit m s ∧ x = charLeaf _ (.kw k) s := Weighed.inv h

theorem bind_err {g : G α} {f : α → G β} {s : Str} {n : Nat} {e : Err Char} (h : V m (.bind g f) s n (.err e)) :
    (∃ q u i j, V m g s i (.ok q u) ∧ V m (f u) q j (.err e) ∧ n = i + j) ∨ V m g s n (.err e) := by
  have := Weighed.inv h
  simp only [Weighed.Inv] at this
  rcases this with ⟨q, u, i, j, h1, h2, rfl⟩ | ⟨e, h1, h2⟩
  · exact .inl ⟨q, u, i, j, h1, h2, rfl⟩
  · cases h2
    exact .inr h1

theorem paren_err {g : G α} {f : α → G β} {s : Str} {n : Nat} {e : Err Char}
    (h : V m (.bind (G.parenthesized g) f) s n (.err e)) : At '(' s ∨ (m < s.length → n = 0) := by
  have : Opens '(' (.bind (G.parenthesized g) f) := inferInstanceAs (Opens '(' (G.parenthesized g >>= f))
  exact (this.opens _ _ _ _ h).imp_right fun h => h.1

/-- A name has been read. -/
theorem ident_err {f : Str → G β} {s q v : Str} {n : Nat} {e : Err Char} (hq : charLeaf _ .ident s = .ok q v)
    (h : V m (.bind G.ident f) s n (.err e)) : ∃ j, V m (f v) q j (.err e) ∧ n = visit m s + j := by
  rcases bind_err h with ⟨q', u, i, j, h1, h2, rfl⟩ | h1
  · obtain ⟨rfl, e'⟩ := ident_v h1
    rw [hq] at e'
    cases e'
    exact ⟨_, h2, rfl⟩
  · obtain ⟨-, e'⟩ := ident_v h1
    rw [hq] at e'
    cases e'

/-- A symbol has been read, or nothing is looked at behind it. -/
theorem punct_err {p : Punct} {f : Unit → G β} {s : Str} {n : Nat} {e : Err Char} (h : V m (.bind (G.punct p) f) s n (.err e)) :
    (∃ q u j, charLeaf _ (.punct p) s = .ok q u ∧ V m (f u) q j (.err e) ∧ n = visit m s + j) ∨ n = visit m s := by
  rcases bind_err h with ⟨q', u, i, j, h1, h2, rfl⟩ | h1
  · obtain ⟨rfl, e'⟩ := punct_v h1
    exact .inl ⟨_, _, _, e'.symm, h2, rfl⟩
  · exact .inr (punct_v h1).1

section
variable {s q v : Str} {n : Nat} {e : Err Char} (hq : charLeaf _ .ident s = .ok q v)
include hq

theorem argList_err (h : V m G.extAttrArgList s n (.err e)) : (m < q.length → n = 0) ∨ At '(' q := by
  obtain ⟨j, h1, rfl⟩ := ident_err hq h
  have h2 := leaf_lt hq
  rcases paren_err h1 with h3 | h3
  · exact .inr h3
  · exact .inl fun hm => by rw [visit_zero (by omega), h3 hm]

/-- A name and an equals sign have been read, or nothing is looked at behind the name. -/
theorem assign_err {f : Str → Unit → G β} (h : V m (.bind G.ident fun a => .bind (G.punct .assign) fun b => f a b) s n (.err e)) :
    (m < q.length → n = 0) ∨ ∃ q' u j, charLeaf _ (.punct .assign) q = .ok q' u ∧ V m (f v u) q' j (.err e) ∧
      q'.length < q.length ∧ (m < q.length → n = j) := by
  obtain ⟨j, h1, rfl⟩ := ident_err hq h
  have h2 := leaf_lt hq
  rcases punct_err h1 with ⟨q', u, j, h3, h4, rfl⟩ | rfl
  · have h5 := leaf_lt h3
    exact .inr ⟨q', u, j, h3, h4, h5, fun hm => by rw [visit_zero (s := s) (by omega), visit_zero (s := q) hm]; omega⟩
  · exact .inl fun hm => by rw [visit_zero (s := s) (by omega), visit_zero hm]

theorem namedArgList_err (h : V m G.extAttrNamedArgList s n (.err e)) :
    (m < q.length → n = 0) ∨ ∃ q' u, charLeaf _ (.punct .assign) q = .ok q' u ∧ ((m < q'.length → n = 0) ∨
      ∃ q'' v', charLeaf _ .ident q' = .ok q'' v' ∧ ((m < q''.length → n = 0) ∨ At '(' q'')) := by
  rcases assign_err hq h with h1 | ⟨q', u, j, h1, h2, h3, h4⟩
  · exact .inl h1
  · refine .inr ⟨q', u, h1, ?_⟩
    rcases bind_err h2 with ⟨q'', u'', i'', j'', h5, h6, rfl⟩ | h5
    · obtain ⟨rfl, e'⟩ := ident_v h5
      have h7 := leaf_lt e'.symm
      refine .inr ⟨q'', u'', e'.symm, ?_⟩
      rcases paren_err h6 with h8 | h8
      · exact .inr h8
      · exact .inl fun hm => by rw [h4 (by omega), visit_zero (by omega), h8 hm]
    · obtain ⟨rfl, -⟩ := ident_v h5
      exact .inl fun hm => by rw [h4 (by omega), visit_zero hm]

theorem identList_err (h : V m G.extAttrIdentList s n (.err e)) :
    (m < q.length → n = 0) ∨ ∃ q' u, charLeaf _ (.punct .assign) q = .ok q' u ∧ ((m < q'.length → n = 0) ∨ At '(' q') := by
  rcases assign_err hq h with h1 | ⟨q', u, j, h1, h2, h3, h4⟩
  · exact .inl h1
  · refine .inr ⟨q', u, h1, ?_⟩
    rcases paren_err h2 with h8 | h8
    · exact .inr h8
    · exact .inl fun hm => by rw [h4 (by omega), h8 hm]

theorem value_err {f : Str → Unit → G β} (hf : ∀ a b, Here (f a b))
    (h : V m (.bind G.ident fun a => .bind (G.punct .assign) fun b => f a b) s n (.err e)) :
    (m < q.length → n = 0) ∨ ∃ q' u, charLeaf _ (.punct .assign) q = .ok q' u ∧ (m < q'.length → n = 0) := by
  rcases assign_err hq h with h1 | ⟨q', u, j, h1, h2, h3, h4⟩
  · exact .inl h1
  · exact .inr ⟨q', u, h1, fun hm => by rw [h4 (by omega), (hf _ _).here _ _ _ _ h2 hm]⟩

end

theorem runs_suffix {g : G α} {s r : Str} {n : Nat} {v : α} (h : Runs charLeaf g s n (.ok r v)) : r <:+ s := by
  obtain ⟨_, h⟩ := Weighed.of_runs h (visit 0)
  exact h.suffix

/-- What the later alternatives accept: a name, or a name with an equals sign and a value. -/
def Valued (o : Prop) (s r : Str) : Prop := ∃ q v, charLeaf _ .ident s = .ok q v ∧ r.length ≤ q.length ∧
  (r = q ∨ ∃ q' u, charLeaf _ (.punct .assign) q = .ok q' u ∧ r.length ≤ q'.length ∧
    (o ∧ At '(' q' ∨ At '"' q' ∨ At '*' q' ∨ ∃ v', charLeaf _ .ident q' = .ok r v'))

theorem valued_assign {f : Str → Unit → G β} {s r : Str} {n : Nat} {u : β}
    (h : Runs charLeaf (.bind G.ident fun a => .bind (G.punct .assign) fun b => f a b) s n (.ok r u)) :
    ∃ q v q' x j, charLeaf _ .ident s = .ok q v ∧ charLeaf _ (.punct .assign) q = .ok q' x ∧ q'.length < q.length ∧
      Runs charLeaf (f v x) q' j (.ok r u) ∧ r.length ≤ q'.length := by
  obtain ⟨q1, u1, _, _, e1, h7, _⟩ := bind_ok h
  obtain ⟨-, e1⟩ := ident_runs e1
  obtain ⟨q2, u2, _, j, e2, h8, _⟩ := bind_ok h7
  obtain ⟨-, e2⟩ := punct_runs e2
  exact ⟨_, _, _, _, _, e1.symm, e2.symm, leaf_lt e2.symm, h8, (runs_suffix h8).length_le⟩

theorem valued_identList {s r : Str} {n : Nat} {u : ExtAttr} (h : Runs charLeaf G.extAttrIdentList s n (.ok r u)) : Valued True s r := by
  obtain ⟨q, v, q', x, j, h1, h2, h3, h4, h5⟩ := valued_assign h
  refine ⟨q, v, h1, by omega, .inr ⟨q', x, h2, h5, .inl ⟨trivial, ?_⟩⟩⟩
  obtain ⟨q3, u3, _, _, e3, _, _⟩ := bind_ok h4
  obtain ⟨q4, u4, _, _, e4, _, _⟩ := bind_ok e3
  obtain ⟨-, e4⟩ := punct_runs e4
  exact leaf_at rfl e4.symm

theorem valued_ident {o : Prop} {s r : Str} {n : Nat} {u : ExtAttr} (h : Runs charLeaf G.extAttrIdent s n (.ok r u)) : Valued o s r := by
  obtain ⟨q, v, q', x, j, h1, h2, h3, h4, h5⟩ := valued_assign h
  refine ⟨q, v, h1, by omega, .inr ⟨q', x, h2, h5, .inr ?_⟩⟩
  obtain ⟨q3, u3, _, _, e3, h9, _⟩ := bind_ok h4
  obtain rfl := ret_ok h9
  rcases or_ok e3 with ⟨m, e3⟩ | ⟨m, e3⟩
  · obtain ⟨q4, u4, _, _, e4, h10, _⟩ := bind_ok e3
    obtain rfl := ret_ok h10
    obtain ⟨-, e4⟩ := ident_runs e4
    exact .inr (.inr ⟨_, e4.symm⟩)
  · rcases or_ok e3 with ⟨m, e3⟩ | ⟨m, e3⟩
    · obtain ⟨q4, u4, _, _, e4, h10, _⟩ := bind_ok e3
      obtain ⟨-, e4⟩ := Runs.inv (show Runs charLeaf (.leaf .string) _ _ _ from e4)
      exact .inl (string_at e4.symm)
    · obtain ⟨-, h⟩ := Runs.inv e3
      cases h

theorem valued_wildcard {o : Prop} {s r : Str} {n : Nat} {u : ExtAttr} (h : Runs charLeaf G.extAttrWildcard s n (.ok r u)) : Valued o s r := by
  obtain ⟨q, v, q', x, j, h1, h2, h3, h4, h5⟩ := valued_assign h
  refine ⟨q, v, h1, by omega, .inr ⟨q', x, h2, h5, .inr (.inr (.inl ?_))⟩⟩
  obtain ⟨q3, u3, _, _, e3, h9, _⟩ := bind_ok h4
  obtain ⟨-, e3⟩ := punct_runs e3
  exact leaf_at rfl e3.symm

theorem valued_noArgs {o : Prop} {s r : Str} {n : Nat} {u : ExtAttr} (h : Runs charLeaf G.extAttrNoArgs s n (.ok r u)) : Valued o s r := by
  obtain ⟨q, v, i, j, h1, h2, -⟩ := bind_ok h
  obtain ⟨-, e⟩ := ident_runs h1
  rw [ret_ok h2]
  exact ⟨q, v, e.symm, Nat.le_refl _, .inl rfl⟩

/-- What an alternative has looked at in vain is not beyond what a later one accepts. -/
theorem valued_value {s r q v : Str} {n : Nat} (hq : charLeaf _ .ident s = .ok q v) (h : Valued False s r)
    (hn : (m < q.length → n = 0) ∨ ∃ q' u, charLeaf _ (.punct .assign) q = .ok q' u ∧ ((m < q'.length → n = 0) ∨ At '(' q')) :
    (m < r.length → n = 0) ∨ ∃ ch ∈ ['(', '='], At ch r := by
  obtain ⟨q1, v1, h1, h2, h3⟩ := h
  rw [hq] at h1
  cases h1
  rcases hn with hn | ⟨q', u, h4, hn⟩
  · exact .inl fun hm => hn (by omega)
  · rcases h3 with rfl | ⟨q2, u2, h5, h6, h7⟩
    · exact .inr ⟨'=', by simp, leaf_at rfl h4⟩
    · rw [h4] at h5
      cases h5
      rcases hn with hn | hn
      · exact .inl fun hm => hn (by omega)
      · rcases h7 with ⟨h7, -⟩ | h7 | h7 | ⟨v', h7⟩
        · exact h7.elim
        · exact absurd (hn.det h7) (by decide)
        · exact absurd (hn.det h7) (by decide)
        · exact (Refuse.not_ok hn h7).elim

instance : Exact G.stringLit := by unfold G.stringLit; infer_instance
instance : Here G.stringLit := by unfold G.stringLit; infer_instance
instance : Exact G.identifierOrString := by unfold G.identifierOrString; infer_instance
instance : Here G.identifierOrString := by unfold G.identifierOrString; infer_instance
instance : Exact G.extAttrIdent := by unfold G.extAttrIdent; infer_instance
instance : Exact G.extAttrWildcard := by unfold G.extAttrWildcard; infer_instance
instance : Exact G.extAttrNoArgs := by unfold G.extAttrNoArgs; infer_instance
instance [Linear.Sign c] : Blunt c G.stringLit := by unfold G.stringLit; infer_instance
instance [Linear.Sign c] : Blunt c G.identifierOrString := by unfold G.identifierOrString; infer_instance
instance [Linear.Sign c] : Blunt c G.extAttr := by
  unfold G.extAttr G.extAttrArgList G.extAttrNamedArgList G.extAttrIdentList G.extAttrIdent G.extAttrWildcard G.extAttrNoArgs
  infer_instance

section
variable [Usual A]

instance : Meas A G.stringLit := by unfold G.stringLit; infer_instance
instance : Meas A G.identifierOrString := by unfold G.identifierOrString; infer_instance
instance : Meas A G.extAttrIdent := by unfold G.extAttrIdent; infer_instance
instance : Meas A G.extAttrWildcard := by unfold G.extAttrWildcard; infer_instance
instance : Meas A G.extAttrNoArgs := by unfold G.extAttrNoArgs; infer_instance

instance [Linear.Sign c] [Refuse c (.punct .openBracket)] [Refuse c (.punct .openParen)] : Blunt c G.attributedType := by
  unfold G.attributedType; infer_instance
instance [Linear.Sign c] [Refuse c (.punct .openBracket)] [Refuse c (.punct .openParen)] : Blunt c G.singleArgument := by
  unfold G.singleArgument; infer_instance
instance [Linear.Sign c] [Refuse c (.punct .openBracket)] [Refuse c (.punct .openParen)] : Blunt c G.variadicArgument := by
  unfold G.variadicArgument; infer_instance
instance [Linear.Sign c] [Refuse c (.punct .openBracket)] [Refuse c (.punct .openParen)] : Blunt c G.argument := by
  unfold G.argument; infer_instance
instance [Linear.Sign c] [Refuse c (.punct .openBracket)] [Refuse c (.punct .openParen)] : Blunt c (.call .argument) := by
  have : Blunt c (G.body .argument) := inferInstanceAs (Blunt c G.argument)
  infer_instance

instance : Lin A l (G.parenthesized G.argumentList) [] 7 :=
  Lin.mono (lin_list (z := ')') rfl inferInstance inferInstance (j := l + 1) inferInstance inferInstance inferInstance inferInstance
    inferInstance inferInstance inferInstance inferInstance inferInstance inferInstance
    (inferInstance : Blunt ')' (.call .argument)) inferInstance (by decide) inferInstance) (by decide)
instance : Lin A l (G.parenthesized G.identifierList) [] 7 :=
  Lin.mono (lin_list (z := ')') rfl inferInstance inferInstance (j := l + 1) inferInstance inferInstance inferInstance inferInstance
    inferInstance inferInstance inferInstance inferInstance inferInstance inferInstance
    (inferInstance : Blunt ')' G.ident) inferInstance (by decide) inferInstance) (by decide)
instance : Lin A l G.extAttrArgList [] 8 := by unfold G.extAttrArgList; infer_instance
instance : Lin A l G.extAttrNamedArgList [] 10 := by unfold G.extAttrNamedArgList; infer_instance
instance : Lin A l G.extAttrIdentList [] 9 := by unfold G.extAttrIdentList; infer_instance

instance : Lin A l G.extAttr ['(', '='] 35 := by
  have no : ∀ {k : Nat} {g : G ExtAttr}, Lin A l g [] k → Lin A l g ['(', '='] k := fun h => h.weaken fun _ h => nomatch h
  unfold G.extAttr
  refine Lin.mono (lin_orElse (no (inferInstance : Lin A l G.extAttrArgList [] 8))
    (lin_orElse (no (inferInstance : Lin A l G.extAttrNamedArgList [] 10))
    (lin_orElse (no (inferInstance : Lin A l G.extAttrIdentList [] 9))
    (lin_orElse (no (lin_of (g := G.extAttrIdent)))
    (lin_orElse (no (lin_of (g := G.extAttrWildcard)))
    (no (lin_last (lin_of (g := G.extAttrNoArgs)))) ?_) ?_) ?_) ?_) ?_) (by decide)
  · intro d a ha hc m s hd n e i r v h1 h2
    obtain ⟨_, h2, -⟩ := h2.runs
    have h3 : Valued False s r := alts_ok (P := fun r => Valued False s r) (fun g hg n r v h => by
      simp only [List.mem_cons, List.not_mem_nil, or_false] at hg
      subst hg
      exact valued_noArgs h) _ _ _ h2
    obtain ⟨q, _, hq, _⟩ := id h3
    refine valued_value hq h3 ((value_err (m := m) (n := n) hq (fun _ _ => inferInstanceAs (Here (_ >>= fun _ => _))) h1).imp_right ?_)
    exact fun ⟨q', u, h4, h5⟩ => ⟨q', u, h4, .inl h5⟩
  · intro d a ha hc m s hd n e i r v h1 h2
    obtain ⟨_, h2, -⟩ := h2.runs
    have h3 : Valued False s r := alts_ok (P := fun r => Valued False s r) (fun g hg n r v h => by
      simp only [List.mem_cons, List.not_mem_nil, or_false] at hg
      rcases hg with rfl | rfl
      · exact valued_wildcard h
      · exact valued_noArgs h) _ _ _ h2
    obtain ⟨q, _, hq, _⟩ := id h3
    refine valued_value hq h3 ((value_err (m := m) (n := n) hq (fun _ _ => inferInstanceAs (Here (_ >>= fun _ => _))) h1).imp_right ?_)
    exact fun ⟨q', u, h4, h5⟩ => ⟨q', u, h4, .inl h5⟩
  · intro d a ha hc m s hd n e i r v h1 h2
    obtain ⟨_, h2, -⟩ := h2.runs
    have h3 : Valued False s r := alts_ok (P := fun r => Valued False s r) (fun g hg n r v h => by
      simp only [List.mem_cons, List.not_mem_nil, or_false] at hg
      rcases hg with rfl | rfl | rfl
      · exact valued_ident h
      · exact valued_wildcard h
      · exact valued_noArgs h) _ _ _ h2
    obtain ⟨q, _, hq, _⟩ := id h3
    exact valued_value hq h3 (identList_err hq h1)
  · intro d a ha hc m s hd n e i r v h1 h2
    obtain ⟨_, h2, -⟩ := h2.runs
    have h3 : Valued True s r := alts_ok (P := fun r => Valued True s r) (fun g hg n r v h => by
      simp only [List.mem_cons, List.not_mem_nil, or_false] at hg
      rcases hg with rfl | rfl | rfl | rfl
      · exact valued_identList h
      · exact valued_ident h
      · exact valued_wildcard h
      · exact valued_noArgs h) _ _ _ h2
    obtain ⟨q, _, hq, h4, h5⟩ := h3
    rcases namedArgList_err hq h1 with h6 | ⟨q', u, h6, h7⟩
    · exact .inl fun hm => h6 (by omega)
    · rcases h5 with rfl | ⟨q2, u2, h8, h9, h10⟩
      · exact .inr ⟨'=', by simp, leaf_at rfl h6⟩
      · rw [h6] at h8
        cases h8
        rcases h7 with h7 | ⟨q'', v', h7, h11⟩
        · exact .inl fun hm => h7 (by omega)
        · rcases h10 with ⟨-, h10⟩ | h10 | h10 | ⟨v2, h10⟩
          · exact (Refuse.not_ok h10 h7).elim
          · exact (Refuse.not_ok h10 h7).elim
          · exact (Refuse.not_ok h10 h7).elim
          · rw [h7] at h10
            cases h10
            exact h11.imp_right fun h => ⟨'(', by simp, h⟩
  · intro d a ha hc m s hd n e i r v h1 h2
    obtain ⟨_, h2, -⟩ := h2.runs
    have h3 : ∃ q v, charLeaf _ .ident s = .ok q v ∧ r.length ≤ q.length ∧ (r = q ∨ At '=' q) :=
      alts_ok (P := fun r => ∃ q v, charLeaf _ .ident s = .ok q v ∧ r.length ≤ q.length ∧ (r = q ∨ At '=' q)) (fun g hg n r v h => by
      simp only [List.mem_cons, List.not_mem_nil, or_false] at hg
      have key : ∀ {f : Str → Unit → G ExtAttr},
          Runs charLeaf (.bind G.ident fun a => .bind (G.punct .assign) fun b => f a b) s n (.ok r v) →
          ∃ q v, charLeaf _ .ident s = .ok q v ∧ r.length ≤ q.length ∧ (r = q ∨ At '=' q) := fun h => by
        obtain ⟨q, v, q', x, j, h1, h2, h3, h4, h5⟩ := valued_assign h
        exact ⟨q, v, h1, by omega, .inr (leaf_at rfl h2)⟩
      rcases hg with rfl | rfl | rfl | rfl | rfl
      · exact key h
      · exact key h
      · exact key h
      · exact key h
      · obtain ⟨q, v, h1, h2, h3⟩ := valued_noArgs (o := True) h
        refine ⟨q, v, h1, h2, h3.imp_right ?_⟩
        exact fun ⟨q', u, h4, _⟩ => leaf_at rfl h4) _ _ _ h2
    obtain ⟨q, _, hq, h4, h5⟩ := h3
    rcases argList_err hq h1 with h6 | h6
    · exact .inl fun hm => h6 (by omega)
    · rcases h5 with rfl | h5
      · exact .inr ⟨'(', by simp, h6⟩
      · exact absurd (h6.det h5) (by decide)

instance : Lin A l G.extAttrList [] 109 := by
  unfold G.extAttrList
  exact Lin.mono (lin_list (z := ']') rfl inferInstance inferInstance (j := l) inferInstance inferInstance inferInstance inferInstance
    inferInstance inferInstance inferInstance inferInstance inferInstance inferInstance
    (inferInstance : Blunt ']' G.extAttr) inferInstance (by decide) inferInstance) (by decide)
instance : Opens '[' G.extAttrList := by unfold G.extAttrList; infer_instance
instance : Lin A l G.attrs ['['] 109 := lin_opt inferInstance inferInstance
instance : Lin A l G.attributedNonAnyType ['<'] 203 := by unfold G.attributedNonAnyType; infer_instance
instance : Lin A l G.unionMemberType ['<'] 211 := by
  unfold G.unionMemberType
  refine Lin.mono (lin_alt (c := '(') (inferInstance : Lin A l G.attributedNonAnyType ['<'] 203)
    (lin_last (Lin.weaken (X := []) (k := 8) ?_ fun _ h => nomatch h)) opens_last) (by decide)
  infer_instance
instance : Lin A l G.attributedType ['<'] 212 := by unfold G.attributedType; infer_instance
instance : Lin A l G.returnType ['<'] 104 := by unfold G.returnType; infer_instance
end
end Verif.Visits
