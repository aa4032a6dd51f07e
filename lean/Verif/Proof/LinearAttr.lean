import Verif.Proof.LinearType

/-! # Costs of extended attributes and arguments -/

namespace Verif.Linear
open Nom Spec

set_option synthInstance.maxSize 2000
set_option synthInstance.maxHeartbeats 400000

variable {α β : Type} {A : Str → Nat} {l : Nat} {c : Char} {w : Kw}

theorem ident_runs {s : Str} {n : Nat} {x : Res Char Str} (h : Runs charLeaf G.ident s n x) :
    n = 1 ∧ x = charLeaf _ .ident s := Runs.inv h
theorem kw_runs {k : Kw} {s : Str} {n : Nat} {x : Res Char Unit} (h : Runs charLeaf (G.kw k) s n x) :
    n = 1 ∧ x = charLeaf _ (.kw k) s := Runs.inv h

theorem bind_ok {g : G α} {f : α → G β} {s r : Str} {n : Nat} {v : β} (h : Runs charLeaf (.bind g f) s n (.ok r v)) :
    ∃ q u i j, Runs charLeaf g s i (.ok q u) ∧ Runs charLeaf (f u) q j (.ok r v) ∧ n = i + j := by
  have := Runs.inv h
  simp only [Runs.Inv] at this
  rcases this with ⟨q, u, i, j, h1, h2, rfl⟩ | ⟨e, h1, h2⟩
  · exact ⟨q, u, i, j, h1, h2, rfl⟩
  · cases h2

theorem bind_err {g : G α} {f : α → G β} {s : Str} {n : Nat} {e : Err Char} (h : Runs charLeaf (.bind g f) s n (.err e)) :
    (∃ q u i j, Runs charLeaf g s i (.ok q u) ∧ Runs charLeaf (f u) q j (.err e) ∧ n = i + j) ∨ Runs charLeaf g s n (.err e) := by
  have := Runs.inv h
  simp only [Runs.Inv] at this
  rcases this with ⟨q, u, i, j, h1, h2, rfl⟩ | ⟨e, h1, h2⟩
  · exact .inl ⟨q, u, i, j, h1, h2, rfl⟩
  · cases h2
    exact .inr h1

theorem or_ok {g h : G α} {s r : Str} {n : Nat} {v : α} (hr : Runs charLeaf (.orElse g h) s n (.ok r v)) :
    (∃ m, Runs charLeaf g s m (.ok r v)) ∨ ∃ m, Runs charLeaf h s m (.ok r v) := by
  have := Runs.inv hr
  simp only [Runs.Inv] at this
  rcases this with ⟨q, u, h1, h2⟩ | ⟨p, q, i, j, h1, h2, rfl⟩ | ⟨e, -, h1, h2⟩
  · cases h2; exact .inl ⟨_, h1⟩
  · exact .inr ⟨_, h2⟩
  · cases h2

/-- What any of the alternatives does, the choice does. -/
theorem alts_ok {P : Str → Prop} {gs : List (G α)} {s : Str} (h : ∀ g ∈ gs, ∀ n r v, Runs charLeaf g s n (.ok r v) → P r) :
    ∀ n r v, Runs charLeaf (G.alts gs) s n (.ok r v) → P r := by
  induction gs with
  | nil =>
    intro n r v hr
    obtain ⟨-, h⟩ := Runs.inv hr
    cases h
  | cons g gs ih =>
    intro n r v hr
    rcases or_ok hr with ⟨m, h1⟩ | ⟨m, h1⟩
    · exact h g (by simp) _ _ _ h1
    · exact ih (fun g hg => h g (by simp [hg])) _ _ _ h1

/-- A parser that begins with a name, after which it fails or stops at the character. -/
theorem after_ident {f : Str → G β} {s q r : Str} {v : Str} {n : Nat} {u : β} (hq : charLeaf _ .ident s = .ok q v)
    (hf : ∀ j, Runs charLeaf (f v) q j (.ok r u) → r = q) (h : Runs charLeaf (.bind G.ident f) s n (.ok r u)) : r = q := by
  obtain ⟨q', u', i, j, h1, h2, -⟩ := bind_ok h
  obtain ⟨-, e⟩ := ident_runs h1
  rw [hq] at e
  cases e
  exact hf _ h2

/-- A parser that begins with a name and an equals sign. -/
theorem after_assign {f : Str → G β} {s q q' r v : Str} {n : Nat} {u : β} {x : Unit} (hq : charLeaf _ .ident s = .ok q v)
    (hq' : charLeaf _ (.punct .assign) q = .ok q' x)
    (h : Runs charLeaf (.bind G.ident fun a => .bind (G.punct .assign) fun _ => f a) s n (.ok r u)) :
    ∃ m, Runs charLeaf (f v) q' m (.ok r u) := by
  obtain ⟨q1, u1, _, _, e1, h7, _⟩ := bind_ok h
  obtain ⟨-, e1⟩ := ident_runs e1
  rw [hq] at e1
  cases e1
  obtain ⟨q2, u2, _, j, e2, h8, _⟩ := bind_ok h7
  obtain ⟨-, e2⟩ := punct_runs e2
  rw [hq'] at e2
  cases e2
  exact ⟨j, h8⟩

theorem refuse_ident (h : ¬ (c.isAlpha = true ∨ c = '_')) : Refuse c .ident := ⟨fun w v hw => by
  obtain ⟨h1, h2⟩ := hw
  obtain ⟨d, v', rfl, h3, h4⟩ := word_iff.1 h2
  rcases h1 with rfl | rfl
  · refine ⟨by simp, fun e => h (.inl ?_)⟩
    simp at e
    exact e ▸ h3
  · refine ⟨by simp, fun e => h (.inr ?_)⟩
    simp at e
    exact e.symm⟩
instance : Refuse '*' .ident := refuse_ident (by decide)
instance : Refuse '"' .ident := refuse_ident (by decide)

theorem string_at {s r v : Str} (h : charLeaf _ .string s = .ok r v) : At '"' s := by
  obtain ⟨w, e, h1, h2, -, -⟩ := charLeaf_ok_iff.1 h
  obtain ⟨rfl, -⟩ := h2
  exact ⟨_, h1⟩

theorem stop_of {g : G α} {k : Nat} {s r : Str} {v : α} (c : Char) [h : Blunt c g k] (hs : At c s) (n : Nat) :
    ¬ Runs charLeaf g s n (.ok r v) := fun hr => by
  obtain ⟨-, e, h⟩ := h.blunt _ _ _ hs hr
  cases h

theorem ret_ok {a : α} {s r : Str} {n : Nat} {v : α} (h : Runs charLeaf (.ret a : G α) s n (.ok r v)) : r = s := by
  obtain ⟨-, h⟩ := Runs.inv h
  cases h
  rfl

/-- A bracket that is refused, or not. -/
theorem paren_err {g : G α} {f : α → G β} {s : Str} {n : Nat} {e : Err Char}
    (h : Runs charLeaf (.bind (G.parenthesized g) f) s n (.err e)) : At '(' s ∨ n ≤ 1 := by
  have : Opens '(' (.bind (G.parenthesized g) f) := inferInstanceAs (Opens '(' (G.parenthesized g >>= f))
  exact (this.opens _ _ _ h).imp_right fun h => h.1

theorem argList_err {s : Str} {n : Nat} {e : Err Char} (h : Runs charLeaf G.extAttrArgList s n (.err e)) :
    n ≤ 2 ∨ ∃ q v, charLeaf _ .ident s = .ok q v ∧ At '(' q := by
  rcases bind_err h with ⟨q, u, i, j, h1, h2, rfl⟩ | h1
  · obtain ⟨rfl, e'⟩ := ident_runs h1
    rcases paren_err h2 with h3 | h3
    · exact .inr ⟨q, u, e'.symm, h3⟩
    · exact .inl (by omega)
  · have := (ident_runs h1).1
    exact .inl (by omega)

theorem namedArgList_err {s : Str} {n : Nat} {e : Err Char} (h : Runs charLeaf G.extAttrNamedArgList s n (.err e)) :
    n ≤ 4 ∨ ∃ q v q' u q'' v', charLeaf _ .ident s = .ok q v ∧ charLeaf _ (.punct .assign) q = .ok q' u ∧
      charLeaf _ .ident q' = .ok q'' v' ∧ At '(' q'' := by
  rcases bind_err h with ⟨q, u, i, j, h1, h2, rfl⟩ | h1
  · obtain ⟨rfl, e'⟩ := ident_runs h1
    rcases bind_err h2 with ⟨q', u', i', j', h3, h4, rfl⟩ | h3
    · obtain ⟨rfl, e''⟩ := punct_runs h3
      rcases bind_err h4 with ⟨q'', u'', i'', j'', h5, h6, rfl⟩ | h5
      · obtain ⟨rfl, e'''⟩ := ident_runs h5
        rcases paren_err h6 with h7 | h7
        · exact .inr ⟨_, _, _, _, _, _, e'.symm, e''.symm, e'''.symm, h7⟩
        · exact .inl (by omega)
      · have := (ident_runs h5).1
        exact .inl (by omega)
    · have := (punct_runs h3).1
      exact .inl (by omega)
  · have := (ident_runs h1).1
    exact .inl (by omega)

theorem identList_err {s : Str} {n : Nat} {e : Err Char} (h : Runs charLeaf G.extAttrIdentList s n (.err e)) :
    n ≤ 3 ∨ ∃ q v q' u, charLeaf _ .ident s = .ok q v ∧ charLeaf _ (.punct .assign) q = .ok q' u ∧ At '(' q' := by
  rcases bind_err h with ⟨q, u, i, j, h1, h2, rfl⟩ | h1
  · obtain ⟨rfl, e'⟩ := ident_runs h1
    rcases bind_err h2 with ⟨q', u', i', j', h3, h4, rfl⟩ | h3
    · obtain ⟨rfl, e''⟩ := punct_runs h3
      rcases paren_err h4 with h7 | h7
      · exact .inr ⟨_, _, _, _, e'.symm, e''.symm, h7⟩
      · exact .inl (by omega)
    · have := (punct_runs h3).1
      exact .inl (by omega)
  · have := (ident_runs h1).1
    exact .inl (by omega)

instance : Brief G.stringLit 1 := by unfold G.stringLit; infer_instance
instance : Brief G.identifierOrString 2 := by unfold G.identifierOrString; infer_instance
instance : Brief G.extAttrIdent 4 := by unfold G.extAttrIdent; infer_instance
instance : Brief G.extAttrWildcard 3 := by unfold G.extAttrWildcard; infer_instance
instance : Brief G.extAttrNoArgs 1 := by unfold G.extAttrNoArgs; infer_instance
instance [Sign c] : Blunt c G.stringLit 1 := by unfold G.stringLit; infer_instance
instance [Sign c] : Blunt c G.identifierOrString 2 := by unfold G.identifierOrString; infer_instance
instance [Sign c] : Blunt c G.extAttr 6 := by
  unfold G.extAttr G.extAttrArgList G.extAttrNamedArgList G.extAttrIdentList G.extAttrIdent G.extAttrWildcard G.extAttrNoArgs
  infer_instance

section
variable [Usual A]

instance : Meas A G.stringLit := by unfold G.stringLit; infer_instance
instance : Meas A G.identifierOrString := by unfold G.identifierOrString; infer_instance
instance : Meas A G.extAttrIdent := by unfold G.extAttrIdent; infer_instance
instance : Meas A G.extAttrWildcard := by unfold G.extAttrWildcard; infer_instance
instance : Meas A G.extAttrNoArgs := by unfold G.extAttrNoArgs; infer_instance

instance [Sign c] [Refuse c (.punct .openBracket)] [Refuse c (.punct .openParen)] : Blunt c G.attributedType 40 := by
  unfold G.attributedType; infer_instance
instance [Sign c] [Refuse c (.punct .openBracket)] [Refuse c (.punct .openParen)] : Blunt c G.singleArgument 42 := by
  unfold G.singleArgument; infer_instance
instance [Sign c] [Refuse c (.punct .openBracket)] [Refuse c (.punct .openParen)] : Blunt c G.variadicArgument 40 := by
  unfold G.variadicArgument; infer_instance
instance [Sign c] [Refuse c (.punct .openBracket)] [Refuse c (.punct .openParen)] : Blunt c G.argument 82 := by
  unfold G.argument; infer_instance
instance [Sign c] [Refuse c (.punct .openBracket)] [Refuse c (.punct .openParen)] : Blunt c (.call .argument) 82 := by
  have : Blunt c (G.body .argument) 82 := inferInstanceAs (Blunt c G.argument 82)
  infer_instance

instance : Lin A l (G.parenthesized G.argumentList) [] 170 :=
  Lin.mono (lin_list (z := ')') rfl inferInstance inferInstance (m := l + 1) inferInstance inferInstance inferInstance inferInstance
    inferInstance inferInstance inferInstance inferInstance (inferInstance : Blunt ')' (.call .argument) 82) inferInstance
    (by decide) inferInstance) (by decide)
instance : Lin A l (G.parenthesized G.identifierList) [] 8 :=
  Lin.mono (lin_list (z := ')') rfl inferInstance inferInstance (m := l + 1) inferInstance inferInstance inferInstance inferInstance
    inferInstance inferInstance inferInstance inferInstance (inferInstance : Blunt ')' G.ident 1) inferInstance
    (by decide) inferInstance) (by decide)
instance : Lin A l G.extAttrArgList [] 171 := by unfold G.extAttrArgList; infer_instance
instance : Lin A l G.extAttrNamedArgList [] 173 := by unfold G.extAttrNamedArgList; infer_instance
instance : Lin A l G.extAttrIdentList [] 10 := by unfold G.extAttrIdentList; infer_instance

instance : Lin A l G.extAttr ['(', '='] 371 := by
  unfold G.extAttr
  refine Lin.mono (lin_orElse (kf := 2) ((inferInstance : Lin A l G.extAttrArgList [] 171).weaken fun _ h => nomatch h)
    (lin_orElse (kf := 4) ((inferInstance : Lin A l G.extAttrNamedArgList [] 173).weaken fun _ h => nomatch h)
    (lin_orElse (kf := 3) ((inferInstance : Lin A l G.extAttrIdentList [] 10).weaken fun _ h => nomatch h)
    (lin_cons <| lin_cons <| lin_last <| lin_of.weaken fun _ h => nomatch h) ?_) ?_) ?_) (by decide)
  · intro s n e m r v h1 h2
    rcases identList_err h1 with h3 | ⟨q, v, q', u, h3, h4, h5⟩
    · exact .inl h3
    · refine .inr ⟨'=', by simp, alts_ok (P := fun r => At '=' r) ?_ _ _ _ h2⟩
      have h6 := leaf_at (z := '=') rfl h4
      intro g hg
      simp only [List.mem_cons, List.not_mem_nil, or_false] at hg
      rcases hg with rfl | rfl | rfl
      · intro n r v h
        obtain ⟨m, h8⟩ := after_assign h3 h4 h
        exact (stop_of '(' h5 _ (show Runs charLeaf (G.identifierOrString >>= fun _ => pure _) _ _ _ from h8)).elim
      · intro n r v h
        obtain ⟨m, h8⟩ := after_assign h3 h4 h
        exact (stop_of '(' h5 _ (show Runs charLeaf (G.punct .asterisk >>= fun _ => pure _) _ _ _ from h8)).elim
      · intro n r v h
        rw [after_ident (f := fun v => .ret (ExtAttr.noArgs v)) h3 (fun _ => ret_ok) h]
        exact h6
  · intro s n e m r v h1 h2
    rcases namedArgList_err h1 with h3 | ⟨q, v, q', u, q'', v', h3, h4, h5, h6⟩
    · exact .inl h3
    · refine .inr (alts_ok (P := fun r => ∃ ch ∈ ['(', '='], At ch r) ?_ _ _ _ h2)
      have h7 := leaf_at (z := '=') rfl h4
      intro g hg
      simp only [List.mem_cons, List.not_mem_nil, or_false] at hg
      rcases hg with rfl | rfl | rfl | rfl
      · intro n r v h
        obtain ⟨m, h8⟩ := after_assign h3 h4 h
        obtain ⟨q3, u3, _, _, e3, _, _⟩ := bind_ok h8
        obtain ⟨q4, u4, _, _, e4, _, _⟩ := bind_ok e3
        obtain ⟨-, e4⟩ := punct_runs e4
        exact (Refuse.not_ok (leaf_at (z := '(') rfl e4.symm) h5).elim
      · intro n r v h
        obtain ⟨m, h8⟩ := after_assign h3 h4 h
        obtain ⟨q3, u3, _, _, e3, h9, _⟩ := bind_ok h8
        rw [ret_ok h9]
        refine ⟨'(', by simp, ?_⟩
        rcases or_ok e3 with ⟨m, e3⟩ | ⟨m, e3⟩
        · obtain ⟨q4, u4, _, _, e4, h10, _⟩ := bind_ok e3
          rw [ret_ok h10]
          obtain ⟨-, e4⟩ := ident_runs e4
          rw [h5] at e4
          cases e4
          exact h6
        · rcases or_ok e3 with ⟨m, e3⟩ | ⟨m, e3⟩
          · obtain ⟨q4, u4, _, _, e4, h10, _⟩ := bind_ok e3
            obtain ⟨-, e4⟩ := Runs.inv (show Runs charLeaf (.leaf .string) _ _ _ from e4)
            exact (Refuse.not_ok (string_at e4.symm) h5).elim
          · obtain ⟨-, h⟩ := Runs.inv e3
            cases h
      · intro n r v h
        obtain ⟨m, h8⟩ := after_assign h3 h4 h
        obtain ⟨q3, u3, _, _, e3, h9, _⟩ := bind_ok h8
        obtain ⟨-, e3⟩ := punct_runs e3
        exact (Refuse.not_ok (leaf_at (z := '*') rfl e3.symm) h5).elim
      · intro n r v h
        rw [after_ident (f := fun v => .ret (ExtAttr.noArgs v)) h3 (fun _ => ret_ok) h]
        exact ⟨'=', by simp, h7⟩
  · intro s n e m r v h1 h2
    rcases argList_err h1 with h3 | ⟨q, v, h3, h4⟩
    · exact .inl h3
    · refine .inr ⟨'(', by simp, alts_ok (P := fun r => At '(' r) ?_ _ _ _ h2⟩
      intro g hg
      simp only [List.mem_cons, List.not_mem_nil, or_false] at hg
      have key : ∀ {f : Unit → G ExtAttr} {j r u}, Runs charLeaf (G.punct .assign >>= f) q j (.ok r u) → r = q :=
        fun h => (stop_of '(' h4 _ h).elim
      rcases hg with rfl | rfl | rfl | rfl | rfl
      · intro n r v h
        rw [after_ident h3 (fun _ => key) h]
        exact h4
      · intro n r v h
        rw [after_ident h3 (fun _ => key) h]
        exact h4
      · intro n r v h
        rw [after_ident h3 (fun _ => key) h]
        exact h4
      · intro n r v h
        rw [after_ident h3 (fun _ => key) h]
        exact h4
      · intro n r v h
        rw [after_ident (f := fun v => .ret (ExtAttr.noArgs v)) h3 (fun _ => ret_ok) h]
        exact h4

instance : Lin A l G.extAttrList [] 758 := by
  unfold G.extAttrList
  exact Lin.mono (lin_list (z := ']') rfl inferInstance inferInstance (m := l) inferInstance inferInstance inferInstance inferInstance
    inferInstance inferInstance inferInstance inferInstance (inferInstance : Blunt ']' G.extAttr 6) inferInstance
    (by decide) inferInstance) (by decide)
instance : Opens '[' G.extAttrList := by unfold G.extAttrList; infer_instance
instance : Lin A l G.attrs ['['] 759 := lin_opt inferInstance inferInstance
instance : Lin A l G.attributedNonAnyType ['<'] 853 := by unfold G.attributedNonAnyType; infer_instance
instance : Lin A l G.unionMemberType ['<'] 976 := by
  unfold G.unionMemberType
  refine Lin.mono (lin_alt (c := '(') (inferInstance : Lin A l G.attributedNonAnyType ['<'] 853)
    (lin_last (Lin.weaken (X := []) (k := 85) ?_ fun _ h => nomatch h)) opens_last) (by decide)
  infer_instance
instance : Lin A l G.attributedType ['<'] 977 := by unfold G.attributedType; infer_instance
instance : Lin A l G.returnType ['<'] 219 := by unfold G.returnType; infer_instance
end
end Verif.Linear
