import Verif.Proof.Parts

/-!
# Members and definitions, one by one
-/

namespace Verif
open Nom Spec

local notation "hS" => exact_char.toStepping
local notation "hN" => ntSound_char

theorem Whole.ofClosed {α : Type} {g : G α} {L : α → Lang} (hs : Snd charLeaf CStep (ntLim charLeaf) g L)
    (hc : ∀ a, Closed (L a)) (hok : ∀ a {s r}, RL CStep (L a) s r → Ok charLeaf g s r a) : Whole g L where
  snd := hs
  good a := (hc a).allGood
  semi a := (hc a).semi
  ok := hok

/-- One of several alternatives. -/
theorem Whole.kind {α κ : Type} {f : α → κ} {gs : List (G α × κ)} {L : α → Lang} {g : G α} {k : κ}
    (hy : ∀ g ∈ gs, Yields g.1 (f · = g.2)) (hp : Whole (G.alts (gs.map (·.1))) L)
    (hs : Snd charLeaf CStep (ntLim charLeaf) g L) (hm : (g, k) ∈ gs) (hu : ∀ g' ∈ gs, g'.2 = k → g'.1 = g) :
    Whole g (only (f · = k) L) where
  snd := hs.only (hy _ hm)
  good a := fun ls h => hp.good a ls h.2
  semi a := fun ls h => hp.semi a ls h.2
  ok a _ _ h := by
    obtain ⟨h1, h2⟩ := rl_only h
    exact pick_kind hy hu (hp.ok a h2) h1

/-- What a variant holds was read by its parser. -/
theorem variant_inv {α β : Type} {f : α → β} {g : G α} {s r : Str} {b : β}
    (h : Ok charLeaf (G.variant f g) s r b) : ∃ a, f a = b ∧ Ok charLeaf g s r a := by
  obtain ⟨_, a, h1, h2⟩ := run_bind_ok.1 h
  rw [run_pure] at h2
  cases h2
  exact ⟨a, rfl, h1⟩

/-! ## Members -/

theorem whole_const : Whole G.constMember constMember :=
  .ofClosed (snd_constMember hS hN) closed_constMember fun _ _ _ => okConst exact_char

theorem whole_attributeInterface : Whole G.attributeInterfaceMember attributeInterfaceMember :=
  .ofClosed (snd_attributeInterfaceMember hS hN) closed_attributeInterfaceMember
    fun _ _ _ h => (okAttributeInterface exact_char h).1

theorem whole_constructor : Whole G.constructorInterfaceMember constructorInterfaceMember :=
  .ofClosed (snd_constructorInterfaceMember hS hN) closed_constructorInterfaceMember
    fun _ _ _ h => (okConstructor exact_char h).1

theorem whole_iterable : Whole G.iterableInterfaceMember iterableInterfaceMember :=
  .ofClosed (snd_iterable hS hN) closed_iterable fun _ _ _ h => (okIterable exact_char h).1

theorem iterables_yield : ∀ g ∈ [(G.singleTypedIterable, Arity.one), (G.doubleTypedIterable, .several)],
    Yields g.1 (iterableArity · = g.2) := by
  simp only [List.forall_mem_cons]
  refine ⟨?_, ?_, by simp⟩ <;> yields

theorem whole_singleTypedIterable :
    Whole G.singleTypedIterable (only (iterableArity · = .one) iterableInterfaceMember) :=
  .kind iterables_yield whole_iterable (snd_singleTypedIterable hS hN) (by simp) (by simp)

theorem whole_doubleTypedIterable :
    Whole G.doubleTypedIterable (only (iterableArity · = .several) iterableInterfaceMember) :=
  .kind iterables_yield whole_iterable (snd_doubleTypedIterable hS hN) (by simp) (by simp)

theorem whole_asyncIterable : Whole G.asyncIterableInterfaceMember asyncIterableInterfaceMember :=
  .ofClosed (snd_asyncIterable hS hN) closed_asyncIterable fun _ _ _ h => (okAsyncIterable exact_char h).1

theorem asyncIterables_yield : ∀ g ∈ [(G.singleTypedAsyncIterable, Arity.one),
    (G.doubleTypedAsyncIterable, .several)], Yields g.1 (asyncIterableArity · = g.2) := by
  simp only [List.forall_mem_cons]
  refine ⟨?_, ?_, by simp⟩ <;> yields

theorem whole_singleTypedAsyncIterable :
    Whole G.singleTypedAsyncIterable (only (asyncIterableArity · = .one) asyncIterableInterfaceMember) :=
  .kind asyncIterables_yield whole_asyncIterable (snd_singleTypedAsyncIterable hS hN) (by simp) (by simp)

theorem whole_doubleTypedAsyncIterable :
    Whole G.doubleTypedAsyncIterable (only (asyncIterableArity · = .several) asyncIterableInterfaceMember) :=
  .kind asyncIterables_yield whole_asyncIterable (snd_doubleTypedAsyncIterable hS hN) (by simp) (by simp)

theorem whole_maplike : Whole G.maplikeInterfaceMember maplikeInterfaceMember :=
  .ofClosed (snd_maplike hS hN) closed_maplike fun _ _ _ h => (okMaplike exact_char h).1

theorem whole_setlike : Whole G.setlikeInterfaceMember setlikeInterfaceMember :=
  .ofClosed (snd_setlike hS hN) closed_setlike fun _ _ _ h => (okSetlike exact_char h).1

theorem whole_stringifier : Whole G.stringifierMember stringifierMember :=
  .ofClosed (snd_stringifierMember hS hN) closed_stringifierMember fun _ _ _ h => (okStringifierMember exact_char h).1

theorem whole_interfaceMember : Whole G.interfaceMember interfaceMember :=
  .ofClosed (snd_interfaceMember hS hN) closed_interfaceMember fun m _ _ => ok_interfaceMember exact_char m

theorem whole_mixinMember : Whole G.mixinMember mixinMember :=
  .ofClosed (snd_mixinMember hS hN) closed_mixinMember fun m _ _ => ok_mixinMember exact_char m

theorem whole_namespaceMember : Whole G.namespaceMember namespaceMember :=
  .ofClosed (snd_namespaceMember hS hN) closed_namespaceMember fun m _ _ => ok_namespaceMember exact_char m

theorem whole_dictionaryMember : Whole G.dictionaryMember dictionaryMember :=
  .ofClosed (snd_dictionaryMember hS hN) closed_dictionaryMember fun m _ _ => ok_dictionaryMember exact_char m

theorem whole_operationMixin : Whole G.operationMixinMember operationMixinMember :=
  .ofClosed (snd_operationMixinMember hS hN) closed_operationMixinMember fun m _ _ h => by
    have h' := ok_mixinMember exact_char (.operation m) h
    rcases alts_cons h' with h' | h'
    · obtain ⟨_, ⟨⟩, _⟩ := variant_inv h'
    rcases alts_cons h' with h' | h'
    · obtain ⟨_, ⟨⟩, h1⟩ := variant_inv h'
      exact h1
    rcases alts_cons h' with h' | h'
    · obtain ⟨_, ⟨⟩, _⟩ := variant_inv h'
    rcases alts_cons h' with h' | h'
    · obtain ⟨_, ⟨⟩, _⟩ := variant_inv h'
    exact (alts_nil h').elim

theorem whole_attributeMixin : Whole G.attributeMixinMember attributeMixinMember :=
  .ofClosed (snd_attributeMixinMember hS hN) closed_attributeMixinMember fun m _ _ h => by
    have h' := ok_mixinMember exact_char (.attribute m) h
    rcases alts_cons h' with h' | h'
    · obtain ⟨_, ⟨⟩, _⟩ := variant_inv h'
    rcases alts_cons h' with h' | h'
    · obtain ⟨_, ⟨⟩, _⟩ := variant_inv h'
    rcases alts_cons h' with h' | h'
    · obtain ⟨_, ⟨⟩, h1⟩ := variant_inv h'
      exact h1
    rcases alts_cons h' with h' | h'
    · obtain ⟨_, ⟨⟩, _⟩ := variant_inv h'
    exact (alts_nil h').elim

theorem whole_operationNamespace : Whole G.operationNamespaceMember operationNamespaceMember :=
  .ofClosed (snd_operationNamespaceMember hS hN) closed_operationNamespaceMember fun m _ _ h => by
    have h' := ok_namespaceMember exact_char (.operation m) h
    rcases alts_cons h' with h' | h'
    · obtain ⟨_, ⟨⟩, _⟩ := variant_inv h'
    rcases alts_cons h' with h' | h'
    · obtain ⟨_, ⟨⟩, h1⟩ := variant_inv h'
      exact h1
    rcases alts_cons h' with h' | h'
    · obtain ⟨_, ⟨⟩, _⟩ := variant_inv h'
    exact (alts_nil h').elim

theorem whole_attributeNamespace : Whole G.attributeNamespaceMember attributeNamespaceMember :=
  .ofClosed (snd_attributeNamespaceMember hS hN) closed_attributeNamespaceMember fun m _ _ h => by
    have h' := ok_namespaceMember exact_char (.attribute m) h
    rcases alts_cons h' with h' | h'
    · obtain ⟨_, ⟨⟩, _⟩ := variant_inv h'
    rcases alts_cons h' with h' | h'
    · obtain ⟨_, ⟨⟩, _⟩ := variant_inv h'
    rcases alts_cons h' with h' | h'
    · obtain ⟨_, ⟨⟩, h1⟩ := variant_inv h'
      exact h1
    exact (alts_nil h').elim

/-- Operations, where constructors are not an alternative. -/
theorem whole_operationInterface : Whole G.operationInterfaceMember operationAlone := by
  refine .ofClosed ?_ ?_ ?_
  · intro s r a e
    obtain ⟨m1, as, e1, e⟩ := run_bind_ok.1 e
    obtain ⟨m2, o, e2, e⟩ := run_bind_ok.1 e
    obtain ⟨m3, sp, e3, e⟩ := run_bind_ok.1 e
    obtain ⟨m4, t, e4, e⟩ := run_bind_ok.1 e
    obtain ⟨m5, i, e5, e⟩ := run_bind_ok.1 e
    obtain ⟨m6, args, e6, e⟩ := run_bind_ok.1 e
    obtain ⟨m7, ⟨⟩, e7, e⟩ := run_bind_ok.1 e
    rw [run_pure] at e
    simp only [Res.ok.injEq] at e
    obtain ⟨rfl, rfl⟩ := e
    obtain ⟨l1, r1, h1⟩ := snd_attrs hS hN _ _ _ e1
    obtain ⟨l2, r2, h2⟩ := sndAt_stringifierOrStatic hS hN _ _ _ e2
    obtain ⟨l3, r3, h3⟩ := sndAt_special hS hN _ _ _ e3
    obtain ⟨l4, r4, h4, j4⟩ := sndAt_returnType hS hN _ _ _ e4
    obtain ⟨l6, r6, h6⟩ := snd_parenArgs hS hN _ _ _ e6
    obtain ⟨_, r7, rfl⟩ := Snd.punct hS _ _ _ _ e7
    have h5 : SndAt charLeaf CStep (ntLim charLeaf) (.opt G.ident) m4 (fun o ls' m' =>
        (o = none ∧ ls' = [] ∧ m' = m4) ∨
        ∃ i w, o = some i ∧ ls' = [w] ∧ name i [w] ∧ CStep m4 w m') :=
      .opt (.ident hS fun w m' i h2 h3 => .inr ⟨i, w, rfl, rfl, h3, h2⟩)
        fun _ => .inl ⟨rfl, rfl, rfl⟩
    obtain ⟨l5, r5, h5⟩ := h5 _ _ e5
    have r67 := r6.append r7
    have hret : returnNamed t i (l4 ++ l5) := by
      rcases h5 with ⟨rfl, rfl, rfl⟩ | ⟨j, w, rfl, rfl, hw, hs⟩
      · simpa [returnNamed] using h4
      · exact named_intro h4 j4 hs hw
    have r47 := (r4.append r5).append r67
    have r37 := r3.append r47
    exact ⟨l1 ++ (l2 ++ (l3 ++ ((l4 ++ l5) ++ (l6 ++ [_])))), r1.append (r2.append r37),
      seq_intro h1 (modified_intro h2 r37 (specialised_intro h3 r47 (seq_intro hret
        (seq_intro h6 rfl))))⟩
  · exact fun m => .thenClosed (tidy_attributes _) (.modified (.specialised (closed_operation _ _ _)))
  · intro o s r h
    obtain ⟨as, mo, sp, t, i, args⟩ := o
    obtain ⟨m1, ⟨la, h1, h1'⟩, ⟨ls, h2, hr⟩⟩ := rl_seq.1 h
    dsimp only at h1 h2
    have hA : ∀ ls, (returnNamed t i ⨾ argumentList args ⨾ tok c!";") ls → Headed ls :=
      fun ls h => headed_operation h
    have hB : ∀ ls, specialised sp (returnNamed t i ⨾ argumentList args ⨾ tok c!";") ls → Headed ls :=
      fun ls h => headed_specialised hA h
    have hC := headed_modified hB h2
    have ha := ok_attributes exact_char as h1 h1' fun _ => hC.notBracket exact_char hr
    obtain ⟨m2, h4, h5⟩ := okModifier exact_char hB ⟨ls, h2, hr⟩
    obtain ⟨m3, h6, h7⟩ := okSpecial exact_char hA h5
    obtain ⟨m4, m5, m6, h8, h9, h10, h11⟩ := okOperationTail exact_char h7
    exact .bind ha (.bind h4 (.bind h6 (.bind h8 (.bind h9 (.bind h10 (.bind h11 .pure))))))

/-! ## Definitions -/

theorem whole_definition : Whole G.definition definition where
  snd := snd_definition hS hN
  good := allGood_definition
  semi := semi_definition
  ok d _ _ := ok_definition exact_char d

theorem definitions_yield : ∀ g ∈ [(G.callbackDefinition, Kind.callback),
    (G.callbackInterfaceDefinition, .callbackInterface), (G.interfaceDefinition, .interface),
    (G.interfaceMixinDefinition, .interfaceMixin), (G.namespaceDefinition, .namespace),
    (G.dictionaryDefinition, .dictionary), (G.partialInterfaceDefinition, .partialInterface),
    (G.partialInterfaceMixinDefinition, .partialInterfaceMixin),
    (G.partialDictionaryDefinition, .partialDictionary), (G.partialNamespaceDefinition, .partialNamespace),
    (G.enumDefinition, .enum), (G.typedefDefinition, .typedef),
    (G.includesStatementDefinition, .includesStatement), (G.implementsDefinition, .implements)],
    Yields g.1 (kind · = g.2) := by
  simp only [List.forall_mem_cons]
  refine ⟨?_, ?_, ?_, ?_, ?_, ?_, ?_, ?_, ?_, ?_, ?_, ?_, ?_, ?_, by simp⟩ <;> yields

theorem whole_callback : Whole G.callbackDefinition (only (kind · = .callback) definition) :=
  .kind definitions_yield whole_definition (snd_callbackDef hS hN) (by simp) (by simp)

theorem whole_callbackInterface :
    Whole G.callbackInterfaceDefinition (only (kind · = .callbackInterface) definition) :=
  .kind definitions_yield whole_definition (snd_callbackInterfaceDef hS hN) (by simp) (by simp)

theorem whole_interface : Whole G.interfaceDefinition (only (kind · = .interface) definition) :=
  .kind definitions_yield whole_definition (snd_interfaceDef hS hN) (by simp) (by simp)

theorem whole_interfaceMixin : Whole G.interfaceMixinDefinition (only (kind · = .interfaceMixin) definition) :=
  .kind definitions_yield whole_definition (snd_interfaceMixinDef hS hN) (by simp) (by simp)

theorem whole_namespace : Whole G.namespaceDefinition (only (kind · = .namespace) definition) :=
  .kind definitions_yield whole_definition (snd_namespaceDef hS hN) (by simp) (by simp)

theorem whole_dictionary : Whole G.dictionaryDefinition (only (kind · = .dictionary) definition) :=
  .kind definitions_yield whole_definition (snd_dictionaryDef hS hN) (by simp) (by simp)

theorem whole_partialInterface :
    Whole G.partialInterfaceDefinition (only (kind · = .partialInterface) definition) :=
  .kind definitions_yield whole_definition (snd_partialInterfaceDef hS hN) (by simp) (by simp)

theorem whole_partialInterfaceMixin :
    Whole G.partialInterfaceMixinDefinition (only (kind · = .partialInterfaceMixin) definition) :=
  .kind definitions_yield whole_definition (snd_partialInterfaceMixinDef hS hN) (by simp) (by simp)

theorem whole_partialDictionary :
    Whole G.partialDictionaryDefinition (only (kind · = .partialDictionary) definition) :=
  .kind definitions_yield whole_definition (snd_partialDictionaryDef hS hN) (by simp) (by simp)

theorem whole_partialNamespace :
    Whole G.partialNamespaceDefinition (only (kind · = .partialNamespace) definition) :=
  .kind definitions_yield whole_definition (snd_partialNamespaceDef hS hN) (by simp) (by simp)

theorem whole_enum : Whole G.enumDefinition (only (kind · = .enum) definition) :=
  .kind definitions_yield whole_definition (snd_enumDef hS hN) (by simp) (by simp)

theorem whole_typedef : Whole G.typedefDefinition (only (kind · = .typedef) definition) :=
  .kind definitions_yield whole_definition (snd_typedefDef hS hN) (by simp) (by simp)

theorem whole_includes : Whole G.includesStatementDefinition includesAlone where
  snd := fun _ => .bind (snd_attrs hS hN _) fun _ _ _ _ h1 => .bind (Snd.ident hS _) fun _ _ _ _ h2 =>
    .kwThen hS fun _ _ => .bind (Snd.ident hS _) fun _ _ _ _ h3 => .punctEnd hS fun _ _ =>
      seq_intro h1 (seq_intro h2 (seq_tok (seq_intro h3 rfl)))
  good d := by
    cases d with
    | includesStatement as l r => exact .seq (tidy_attributes as).allGood (.seq (Tidy.name l).allGood
        (.kw .includes (.seq (Tidy.name r).allGood .semi)))
    | _ => exact fun _ h => h.elim
  semi d := by
    cases d with
    | includesStatement as l r => exact .seq (.seq (.seq (.seq semi_tok)))
    | _ => exact fun _ h => h.elim
  ok d s r h := by
    cases d with
    | includesStatement as l r =>
      obtain ⟨m1, ⟨l1, h1, h1'⟩, h⟩ := rl_seq.1 h
      obtain ⟨m2, h2, h⟩ := rl_seq.1 h
      obtain ⟨m3, h3, h⟩ := rl_seq.1 h
      obtain ⟨m4, h4, h5⟩ := rl_seq.1 h
      obtain ⟨w, h2, h2'⟩ := rl_name.1 h2
      obtain ⟨w', h4, h4'⟩ := rl_name.1 h4
      exact .bind (ok_attributes exact_char as h1 h1' fun _ => notBracket exact_char h2' (.inr ⟨_, h2⟩))
        (.bind (okIdent exact_char h2 h2') (.bind (okKw exact_char (k := .includes) (rl_tok.1 h3))
        (.bind (okIdent exact_char h4 h4') (.bind (okSemi exact_char (rl_tok.1 h5)) .pure))))
    | _ => exact h.choose_spec.1.elim

theorem whole_implements : Whole G.implementsDefinition implementsAlone where
  snd := fun _ => .bind (snd_attrs hS hN _) fun _ _ _ _ h1 => .bind (Snd.ident hS _) fun _ _ _ _ h2 =>
    .kwThen hS fun _ _ => .bind (Snd.ident hS _) fun _ _ _ _ h3 => .punctEnd hS fun _ _ =>
      seq_intro h1 (seq_intro h2 (seq_tok (seq_intro h3 rfl)))
  good d := by
    cases d with
    | implements as l r => exact .seq (tidy_attributes as).allGood (.seq (Tidy.name l).allGood
        (.kw .implements (.seq (Tidy.name r).allGood .semi)))
    | _ => exact fun _ h => h.elim
  semi d := by
    cases d with
    | implements as l r => exact .seq (.seq (.seq (.seq semi_tok)))
    | _ => exact fun _ h => h.elim
  ok d s r h := by
    cases d with
    | implements as l r =>
      obtain ⟨m1, ⟨l1, h1, h1'⟩, h⟩ := rl_seq.1 h
      obtain ⟨m2, h2, h⟩ := rl_seq.1 h
      obtain ⟨m3, h3, h⟩ := rl_seq.1 h
      obtain ⟨m4, h4, h5⟩ := rl_seq.1 h
      obtain ⟨w, h2, h2'⟩ := rl_name.1 h2
      obtain ⟨w', h4, h4'⟩ := rl_name.1 h4
      exact .bind (ok_attributes exact_char as h1 h1' fun _ => notBracket exact_char h2' (.inr ⟨_, h2⟩))
        (.bind (okIdent exact_char h2 h2') (.bind (okKw exact_char (k := .implements) (rl_tok.1 h3))
        (.bind (okIdent exact_char h4 h4') (.bind (okSemi exact_char (rl_tok.1 h5)) .pure))))
    | _ => exact h.choose_spec.1.elim

theorem whole_semiColon : Whole (G.punct .semiColon) (fun _ => tok c!";") where
  snd := Snd.punct hS .semiColon
  good _ := .semi
  semi _ := semi_tok
  ok _ _ _ h := okSemi exact_char (rl_tok.1 h)

end Verif
