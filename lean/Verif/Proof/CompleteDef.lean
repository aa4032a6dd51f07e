import Verif.Proof.CompleteMember

/-!
# Completeness: definitions
-/

set_option linter.unusedSectionVars false

namespace Verif
open Nom Spec

variable {σ α β : Type} [DecidableEq σ] {leaf : ∀ α, Leaf α → P σ α}
  {Step : List σ → Str → List σ → Prop} {s m n r : List σ}

section
variable (hE : Exact leaf Step)
include hE

theorem ok_chain {g : G α} (hg : Guarded true g true) {L : α → Lang}
    (h : ∀ a {s r}, RL Step (L a) s r → Ok leaf g s r a) : ∀ (as : List α) {s r : List σ},
    RL Step (concat (as.map L)) s r → Chain (g.run leaf (ntLim leaf)) s as r
  | [], s, r, h' => by cases rl_eps.1 h'; exact .nil
  | a :: as, s, r, h' => by
    obtain ⟨m, h1, h2⟩ := rl_seq.1 h'
    exact .cons (h a h1) (ok_progress hE hg (h a h1)) (ok_chain hg h as h2)

theorem okBody {g : G α} (hg : Guarded true g true) {L : α → Lang}
    (h : ∀ a {s r}, RL Step (L a) s r → Ok leaf g s r a) (hd : ∀ {s}, Dead leaf s → Ko leaf g s)
    {ms : List α} (h' : RL Step (body L ms) s r) :
    ∃ m, Ok leaf (G.braced (.many0 g)) s m ms ∧ Ok leaf (G.punct .semiColon) m r () ∧
      ∃ n, Step s c!"{" n := by
  obtain ⟨m, h1, h2⟩ := rl_seq.1 h'
  obtain ⟨m1, h3, m2, h4, h5⟩ := rl_braces.1 h1
  exact ⟨m, okBraces hE h3 (okMany0 hE hg (ok_chain hE hg h ms h4)
    (hd (dead_punct hE (p := .closeBrace) h5))) h5, okSemi hE (rl_tok.1 h2), m1, h3⟩

theorem okInterfaceBody {ms : List InterfaceMember} (h : RL Step (body interfaceMember ms) s r) :
    ∃ m, Ok leaf (G.braced G.interfaceMembers) s m ms ∧ Ok leaf (G.punct .semiColon) m r () ∧
      ∃ n, Step s c!"{" n :=
  okBody hE inferInstance (fun i _ _ => ok_interfaceMember hE i) Dead.interfaceMember h

theorem okMixinBody {ms : List MixinMember} (h : RL Step (body mixinMember ms) s r) :
    ∃ m, Ok leaf (G.braced G.mixinMembers) s m ms ∧ Ok leaf (G.punct .semiColon) m r () ∧
      ∃ n, Step s c!"{" n :=
  okBody hE inferInstance (fun i _ _ => ok_mixinMember hE i) Dead.mixinMember h

theorem okNamespaceBody {ms : List NamespaceMember} (h : RL Step (body namespaceMember ms) s r) :
    ∃ m, Ok leaf (G.braced G.namespaceMembers) s m ms ∧ Ok leaf (G.punct .semiColon) m r () ∧
      ∃ n, Step s c!"{" n :=
  okBody hE inferInstance (fun i _ _ => ok_namespaceMember hE i) Dead.namespaceMember h

theorem okDictionaryBody {ms : List DictionaryMember} (h : RL Step (body dictionaryMember ms) s r) :
    ∃ m, Ok leaf (G.braced G.dictionaryMembers) s m ms ∧ Ok leaf (G.punct .semiColon) m r () ∧
      ∃ n, Step s c!"{" n :=
  okBody hE inferInstance (fun i _ _ => ok_dictionaryMember hE i) Dead.dictionaryMember h

theorem okInheritance {i : Option Str} (h : RL Step (inheritance i) s m) (hb : Step m c!"{" n) :
    Ok leaf (.opt G.inheritance) s m i := by
  cases i with
  | none =>
    cases rl_eps.1 h
    exact .none (.left (koPunct hE (solid_punct (p := .openBrace) (by decide) (by decide)) hb (by decide)))
  | some i =>
    obtain ⟨m1, h1, h2⟩ := rl_seq.1 h
    obtain ⟨w, h2, h3⟩ := rl_name.1 h2
    exact .some (.bind (okPunct hE (p := .colon) (rl_tok.1 h1)) (okIdent hE h2 h3))

theorem okStrings : ∀ {vs : List Str} {s r : List σ}, RL Step (sepBy comma (vs.map string)) s r →
    Elems ((G.punct .comma).run leaf (ntLim leaf)) (G.stringLit.run leaf (ntLim leaf)) s vs r
  | [], s, r, h => rl_eps.1 h
  | [v], s, r, h => by
    obtain ⟨h1, h2⟩ := rl_string.1 h
    exact ⟨r, okString hE h1 h2, .nil⟩
  | v :: v' :: vs, s, r, h => by
    obtain ⟨m, h1, n, h2, h3⟩ := rl_sepBy.1 h
    obtain ⟨h1, h4⟩ := rl_string.1 h1
    exact elems_cons hE (guarded_punct _) (okString hE h1 h4) (okPunct hE (p := .comma) (rl_tok.1 h2))
      (by simp) (okStrings h3)

theorem okEnumValues {vs : List Str} (h : RL Step (enumValues vs) s m) (hb : Step m c!"}" n) :
    Ok leaf G.enumValueList s m vs := by
  obtain ⟨ls, ⟨h1, c, h2⟩, h3⟩ := h
  obtain ⟨m1, h4, h5⟩ := rl_seq.1 (h3.rl h2)
  have pb : Solid c!"}" := solid_punct (p := .closeBrace) (by decide) (by decide)
  have ks : Ko leaf G.stringLit m := koStringLit hE pb hb fun v hv => by simpa using hv.2
  have kc : Ko leaf (G.punct .comma) m := koPunct hE pb hb (by decide)
  cases c with
  | true =>
    have h5 := rl_tok.1 h5
    have hc := okPunct hE (p := .comma) h5
    exact .bind (okSepNonempty hE guarded_stringLit (guarded_punct _) h1 (okStrings hE h4)
      (.inr ⟨m, (), hc, ok_progress hE (guarded_punct _) hc, ks⟩)) (.bind (.some hc) .pure)
  | false =>
    cases rl_eps.1 h5
    exact .bind (okSepNonempty hE guarded_stringLit (guarded_punct _) h1 (okStrings hE h4)
      (.inl kc)) (.bind (.none kc) .pure)

theorem koName {p : Punct} {i w : Str} (hw : name i [w]) (h : Step s w r)
    (hp : p ≠ .dot ∧ p ≠ .minus := by decide) : Ko leaf (G.punct p) s :=
  koPunct hE (.inl ⟨i, hw⟩) h (by rintro rfl; exact name_ne_punct hw) hp

/-- The alternatives in front of an `includes` or `implements` statement. -/
theorem includes_ko {as : Attrs} {l w i w' : Str} {k : Kw} {m1 m2 m3 m4 : List σ}
    (hk : k = .includes ∨ k = .implements) (ha : Ok leaf G.attrs s m1 as) (hw : name l [w])
    (h1 : Step m1 w m2) (h2 : Step m2 k.text m3) (hw' : name i [w']) (h3 : Step m3 w' m4)
    (ht : w ≠ c!"typedef") :
    Ko leaf G.callbackDefinition s ∧ Ko leaf G.callbackInterfaceDefinition s ∧
    Ko leaf G.interfaceDefinition s ∧ Ko leaf G.interfaceMixinDefinition s ∧
    Ko leaf G.namespaceDefinition s ∧ Ko leaf G.dictionaryDefinition s ∧
    Ko leaf G.partialInterfaceDefinition s ∧ Ko leaf G.partialInterfaceMixinDefinition s ∧
    Ko leaf G.partialDictionaryDefinition s ∧ Ko leaf G.partialNamespaceDefinition s ∧
    Ko leaf G.enumDefinition s ∧ Ko leaf G.typedefDefinition s := by
  have hk' : k ≠ .negInfinity := by rcases hk with rfl | rfl <;> decide
  have id := okIdent hE (word_kw k hk') h2
  have hs : Solid w := .inl ⟨l, hw⟩
  have kw : ∀ {k' : Kw} {α : Type} {f : Attrs → G α}, (Ko leaf (f as) m2) →
      Ko leaf (G.attrs >>= fun as => G.kw k' >>= fun _ => f as) s := by
    intro k' α f h
    refine .right ha ?_
    by_cases he : w = k'.text
    · subst he
      exact .right (okKw hE h1) h
    · exact .left (koKw hE hs h1 he)
  have k2 : ∀ {k' : Kw}, k' ≠ .includes → k' ≠ .implements → Ko leaf (G.kw k') m2 := by
    intro k' h h'
    refine koKw' hE h2 ?_
    rintro rfl
    rcases hk with rfl | rfl
    · exact h rfl
    · exact h' rfl
  have inh : Ok leaf (.opt G.inheritance) m3 m3 none := .none (.left (koName hE hw' h3))
  have br : ∀ {α : Type} {g : G α}, Ko leaf (G.braced g) m3 := .left (koName hE hw' h3)
  exact ⟨kw (.right id (.left (koName hE hw' h3))), kw (.left (k2 (by decide) (by decide))),
    kw (.right id (.right inh (.left br))), kw (.left (k2 (by decide) (by decide))),
    kw (.right id (.left br)), kw (.right id (.right inh (.left br))),
    kw (.left (k2 (by decide) (by decide))), kw (.left (k2 (by decide) (by decide))),
    kw (.left (k2 (by decide) (by decide))), kw (.left (k2 (by decide) (by decide))),
    kw (.right id (.left br)), .right ha (.left (koKw hE hs h1 ht))⟩

theorem ok_definition (d : Definition) (h : RL Step (definition d) s r) : Ok leaf G.definition s r d := by
  have first : ∀ {as : Attrs} {m n : List σ} {k k' : Kw} {α : Type} {f : Attrs → Unit → G α},
      Ok leaf G.attrs s m as → Step m k.text n → k ≠ k' → Ko leaf (G.attrs >>= fun as => G.kw k' >>= f as) s :=
    fun ha hk hne => .right ha (.left (koKw' hE hk hne))
  cases d with
  | callback as i t args =>
    obtain ⟨m1, h1, h⟩ := rl_seq.1 h
    obtain ⟨m2, h2, h⟩ := rl_seq.1 h
    obtain ⟨m3, h3, h⟩ := rl_seq.1 h
    obtain ⟨m4, h4, h⟩ := rl_seq.1 h
    obtain ⟨m5, ⟨l, h5, h5'⟩, h⟩ := rl_seq.1 h
    obtain ⟨m6, h6, h7⟩ := rl_seq.1 h
    have h2 := rl_tok.1 h2
    obtain ⟨w, hw, h3⟩ := rl_name.1 h3
    obtain ⟨q, hq⟩ := argumentList_step hE h6
    exact .here (.bind (okAttrsKw hE (k := .callback) h1 h2) (.bind (okKw hE (k := .callback) h2)
      (.bind (okIdent hE hw h3) (.bind (okPunct hE (p := .assign) (rl_tok.1 h4))
      (.bind (okReturnType hE h5 h5' (tf_punct hE (p := .openParen) hq)) (.bind (okArgs hE h6)
      (.bind (okSemi hE (rl_tok.1 h7)) .pure)))))))
  | callbackInterface as i inh ms =>
    obtain ⟨m1, h1, h⟩ := rl_seq.1 h
    obtain ⟨m2, h2, h⟩ := rl_seq.1 h
    obtain ⟨m3, h3, h⟩ := rl_seq.1 h
    obtain ⟨m4, h4, h⟩ := rl_seq.1 h
    obtain ⟨m5, h5, h6⟩ := rl_seq.1 h
    have h2 := rl_tok.1 h2
    have h3 := rl_tok.1 h3
    obtain ⟨w, hw, h4⟩ := rl_name.1 h4
    obtain ⟨m6, b1, b2, n, b3⟩ := okInterfaceBody hE h6
    have ha := okAttrsKw hE (k := .callback) h1 h2
    have k2 := okKw hE (k := .callback) h2
    exact .next (.right ha (.right k2 (.right (okIdent hE (word_kw .interface) h3) (.left (koName hE hw h4))))) <|
      .here (.bind ha (.bind k2 (.bind (okKw hE (k := .interface) h3) (.bind (okIdent hE hw h4)
        (.bind (okInheritance hE h5 b3) (.bind b1 (.bind b2 .pure)))))))
  | interface as i inh ms =>
    obtain ⟨m1, h1, h⟩ := rl_seq.1 h
    obtain ⟨m2, h2, h⟩ := rl_seq.1 h
    obtain ⟨m4, h4, h⟩ := rl_seq.1 h
    obtain ⟨m5, h5, h6⟩ := rl_seq.1 h
    have h2 := rl_tok.1 h2
    obtain ⟨w, hw, h4⟩ := rl_name.1 h4
    obtain ⟨m6, b1, b2, n, b3⟩ := okInterfaceBody hE h6
    have ha := okAttrsKw hE (k := .interface) h1 h2
    exact .next (first (k := .interface) ha h2 (by decide)) <|
      .next (first (k := .interface) ha h2 (by decide)) <|
      .here (.bind ha (.bind (okKw hE (k := .interface) h2) (.bind (okIdent hE hw h4)
        (.bind (okInheritance hE h5 b3) (.bind b1 (.bind b2 .pure))))))
  | interfaceMixin as i ms =>
    obtain ⟨m1, h1, h⟩ := rl_seq.1 h
    obtain ⟨m2, h2, h⟩ := rl_seq.1 h
    obtain ⟨m3, h3, h⟩ := rl_seq.1 h
    obtain ⟨m4, h4, h5⟩ := rl_seq.1 h
    have h2 := rl_tok.1 h2
    have h3 := rl_tok.1 h3
    obtain ⟨w, hw, h4⟩ := rl_name.1 h4
    obtain ⟨m6, b1, b2, n, b3⟩ := okMixinBody hE h5
    have ha := okAttrsKw hE (k := .interface) h1 h2
    have k2 := okKw hE (k := .interface) h2
    exact .next (first (k := .interface) ha h2 (by decide)) <|
      .next (first (k := .interface) ha h2 (by decide)) <|
      .next (.right ha (.right k2 (.right (okIdent hE (word_kw .mixin) h3) (.right
        (.none (.left (koName hE hw h4))) (.left (.left (koName hE hw h4))))))) <|
      .here (.bind ha (.bind k2 (.bind (okKw hE (k := .mixin) h3) (.bind (okIdent hE hw h4)
        (.bind b1 (.bind b2 .pure))))))
  | «namespace» as i ms =>
    obtain ⟨m1, h1, h⟩ := rl_seq.1 h
    obtain ⟨m2, h2, h⟩ := rl_seq.1 h
    obtain ⟨m4, h4, h5⟩ := rl_seq.1 h
    have h2 := rl_tok.1 h2
    obtain ⟨w, hw, h4⟩ := rl_name.1 h4
    obtain ⟨m6, b1, b2, n, b3⟩ := okNamespaceBody hE h5
    have ha := okAttrsKw hE (k := .namespace) h1 h2
    exact .next (first (k := .namespace) ha h2 (by decide)) <|
      .next (first (k := .namespace) ha h2 (by decide)) <|
      .next (first (k := .namespace) ha h2 (by decide)) <|
      .next (first (k := .namespace) ha h2 (by decide)) <|
      .here (.bind ha (.bind (okKw hE (k := .namespace) h2) (.bind (okIdent hE hw h4)
        (.bind b1 (.bind b2 .pure)))))
  | dictionary as i inh ms =>
    obtain ⟨m1, h1, h⟩ := rl_seq.1 h
    obtain ⟨m2, h2, h⟩ := rl_seq.1 h
    obtain ⟨m4, h4, h⟩ := rl_seq.1 h
    obtain ⟨m5, h5, h6⟩ := rl_seq.1 h
    have h2 := rl_tok.1 h2
    obtain ⟨w, hw, h4⟩ := rl_name.1 h4
    obtain ⟨m6, b1, b2, n, b3⟩ := okDictionaryBody hE h6
    have ha := okAttrsKw hE (k := .dictionary) h1 h2
    exact .next (first (k := .dictionary) ha h2 (by decide)) <|
      .next (first (k := .dictionary) ha h2 (by decide)) <|
      .next (first (k := .dictionary) ha h2 (by decide)) <|
      .next (first (k := .dictionary) ha h2 (by decide)) <|
      .next (first (k := .dictionary) ha h2 (by decide)) <|
      .here (.bind ha (.bind (okKw hE (k := .dictionary) h2) (.bind (okIdent hE hw h4)
        (.bind (okInheritance hE h5 b3) (.bind b1 (.bind b2 .pure))))))
  | partialInterface as i ms =>
    obtain ⟨m1, h1, h⟩ := rl_seq.1 h
    obtain ⟨m2, h2, h⟩ := rl_seq.1 h
    obtain ⟨m3, h3, h⟩ := rl_seq.1 h
    obtain ⟨m4, h4, h5⟩ := rl_seq.1 h
    have h2 := rl_tok.1 h2
    have h3 := rl_tok.1 h3
    obtain ⟨w, hw, h4⟩ := rl_name.1 h4
    obtain ⟨m6, b1, b2, n, b3⟩ := okInterfaceBody hE h5
    have ha := okAttrsKw hE (k := .partial) h1 h2
    have k2 := okKw hE (k := .partial) h2
    exact .next (first (k := .partial) ha h2 (by decide)) <|
      .next (first (k := .partial) ha h2 (by decide)) <|
      .next (first (k := .partial) ha h2 (by decide)) <|
      .next (first (k := .partial) ha h2 (by decide)) <|
      .next (first (k := .partial) ha h2 (by decide)) <|
      .next (first (k := .partial) ha h2 (by decide)) <|
      .here (.bind ha (.bind k2 (.bind (okKw hE (k := .interface) h3) (.bind (okIdent hE hw h4)
        (.bind b1 (.bind b2 .pure))))))
  | partialInterfaceMixin as i ms =>
    obtain ⟨m1, h1, h⟩ := rl_seq.1 h
    obtain ⟨m2, h2, h⟩ := rl_seq.1 h
    obtain ⟨m3, h3, h⟩ := rl_seq.1 h
    obtain ⟨m3', h3', h⟩ := rl_seq.1 h
    obtain ⟨m4, h4, h5⟩ := rl_seq.1 h
    have h2 := rl_tok.1 h2
    have h3 := rl_tok.1 h3
    have h3' := rl_tok.1 h3'
    obtain ⟨w, hw, h4⟩ := rl_name.1 h4
    obtain ⟨m6, b1, b2, n, b3⟩ := okMixinBody hE h5
    have ha := okAttrsKw hE (k := .partial) h1 h2
    have k2 := okKw hE (k := .partial) h2
    have k3 := okKw hE (k := .interface) h3
    exact .next (first (k := .partial) ha h2 (by decide)) <|
      .next (first (k := .partial) ha h2 (by decide)) <|
      .next (first (k := .partial) ha h2 (by decide)) <|
      .next (first (k := .partial) ha h2 (by decide)) <|
      .next (first (k := .partial) ha h2 (by decide)) <|
      .next (first (k := .partial) ha h2 (by decide)) <|
      .next (.right ha (.right k2 (.right k3 (.right (okIdent hE (word_kw .mixin) h3')
        (.left (.left (koName hE hw h4))))))) <|
      .here (.bind ha (.bind k2 (.bind k3 (.bind (okKw hE (k := .mixin) h3') (.bind (okIdent hE hw h4)
        (.bind b1 (.bind b2 .pure)))))))
  | partialDictionary as i ms =>
    obtain ⟨m1, h1, h⟩ := rl_seq.1 h
    obtain ⟨m2, h2, h⟩ := rl_seq.1 h
    obtain ⟨m3, h3, h⟩ := rl_seq.1 h
    obtain ⟨m4, h4, h5⟩ := rl_seq.1 h
    have h2 := rl_tok.1 h2
    have h3 := rl_tok.1 h3
    obtain ⟨w, hw, h4⟩ := rl_name.1 h4
    obtain ⟨m6, b1, b2, n, b3⟩ := okDictionaryBody hE h5
    have ha := okAttrsKw hE (k := .partial) h1 h2
    have k2 := okKw hE (k := .partial) h2
    exact .next (first (k := .partial) ha h2 (by decide)) <|
      .next (first (k := .partial) ha h2 (by decide)) <|
      .next (first (k := .partial) ha h2 (by decide)) <|
      .next (first (k := .partial) ha h2 (by decide)) <|
      .next (first (k := .partial) ha h2 (by decide)) <|
      .next (first (k := .partial) ha h2 (by decide)) <|
      .next (.right ha (.right k2 (.left (koKw' hE (k := .dictionary) h3)))) <|
      .next (.right ha (.right k2 (.left (koKw' hE (k := .dictionary) h3)))) <|
      .here (.bind ha (.bind k2 (.bind (okKw hE (k := .dictionary) h3) (.bind (okIdent hE hw h4)
        (.bind b1 (.bind b2 .pure))))))
  | partialNamespace as i ms =>
    obtain ⟨m1, h1, h⟩ := rl_seq.1 h
    obtain ⟨m2, h2, h⟩ := rl_seq.1 h
    obtain ⟨m3, h3, h⟩ := rl_seq.1 h
    obtain ⟨m4, h4, h5⟩ := rl_seq.1 h
    have h2 := rl_tok.1 h2
    have h3 := rl_tok.1 h3
    obtain ⟨w, hw, h4⟩ := rl_name.1 h4
    obtain ⟨m6, b1, b2, n, b3⟩ := okNamespaceBody hE h5
    have ha := okAttrsKw hE (k := .partial) h1 h2
    have k2 := okKw hE (k := .partial) h2
    exact .next (first (k := .partial) ha h2 (by decide)) <|
      .next (first (k := .partial) ha h2 (by decide)) <|
      .next (first (k := .partial) ha h2 (by decide)) <|
      .next (first (k := .partial) ha h2 (by decide)) <|
      .next (first (k := .partial) ha h2 (by decide)) <|
      .next (first (k := .partial) ha h2 (by decide)) <|
      .next (.right ha (.right k2 (.left (koKw' hE (k := .namespace) h3)))) <|
      .next (.right ha (.right k2 (.left (koKw' hE (k := .namespace) h3)))) <|
      .next (.right ha (.right k2 (.left (koKw' hE (k := .namespace) h3)))) <|
      .here (.bind ha (.bind k2 (.bind (okKw hE (k := .namespace) h3) (.bind (okIdent hE hw h4)
        (.bind b1 (.bind b2 .pure))))))
  | enum as i vs =>
    obtain ⟨m1, h1, h⟩ := rl_seq.1 h
    obtain ⟨m2, h2, h⟩ := rl_seq.1 h
    obtain ⟨m3, h3, h⟩ := rl_seq.1 h
    obtain ⟨m4, h4, h5⟩ := rl_seq.1 h
    have h2 := rl_tok.1 h2
    obtain ⟨w, hw, h3⟩ := rl_name.1 h3
    obtain ⟨n1, h6, n2, h7, h8⟩ := rl_braces.1 h4
    have ha := okAttrsKw hE (k := .enum) h1 h2
    exact .next (first (k := .enum) ha h2 (by decide)) <| .next (first (k := .enum) ha h2 (by decide)) <|
      .next (first (k := .enum) ha h2 (by decide)) <| .next (first (k := .enum) ha h2 (by decide)) <|
      .next (first (k := .enum) ha h2 (by decide)) <| .next (first (k := .enum) ha h2 (by decide)) <|
      .next (first (k := .enum) ha h2 (by decide)) <| .next (first (k := .enum) ha h2 (by decide)) <|
      .next (first (k := .enum) ha h2 (by decide)) <| .next (first (k := .enum) ha h2 (by decide)) <|
      .here (.bind ha (.bind (okKw hE (k := .enum) h2) (.bind (okIdent hE hw h3)
        (.bind (okBraces hE h6 (okEnumValues hE h7 h8) h8) (.bind (okSemi hE (rl_tok.1 h5)) .pure)))))
  | typedef as t i =>
    obtain ⟨m1, h1, h⟩ := rl_seq.1 h
    obtain ⟨m2, h2, h⟩ := rl_seq.1 h
    obtain ⟨m3, h3, h4⟩ := rl_seq.1 h
    have h2 := rl_tok.1 h2
    obtain ⟨n, h5, h6⟩ := okNamedAttributed hE h3
    have ha := okAttrsKw hE (k := .typedef) h1 h2
    exact .next (first (k := .typedef) ha h2 (by decide)) <| .next (first (k := .typedef) ha h2 (by decide)) <|
      .next (first (k := .typedef) ha h2 (by decide)) <| .next (first (k := .typedef) ha h2 (by decide)) <|
      .next (first (k := .typedef) ha h2 (by decide)) <| .next (first (k := .typedef) ha h2 (by decide)) <|
      .next (first (k := .typedef) ha h2 (by decide)) <| .next (first (k := .typedef) ha h2 (by decide)) <|
      .next (first (k := .typedef) ha h2 (by decide)) <| .next (first (k := .typedef) ha h2 (by decide)) <|
      .next (first (k := .typedef) ha h2 (by decide)) <|
      .here (.bind ha (.bind (okKw hE (k := .typedef) h2) (.bind h5 (.bind h6
        (.bind (okSemi hE (rl_tok.1 h4)) .pure)))))
  | includesStatement as l i =>
    obtain ⟨m1, ⟨la, h1, h1'⟩, h⟩ := rl_seq.1 h
    obtain ⟨m2, ⟨lb, ⟨h2, h2'⟩, h2''⟩, h⟩ := rl_seq.1 h
    obtain ⟨m3, h3, h⟩ := rl_seq.1 h
    obtain ⟨m4, h4, h5⟩ := rl_seq.1 h
    obtain ⟨w, rfl, h2⟩ := name_single h2
    obtain ⟨w', hw', h4⟩ := rl_name.1 h4
    have h2'' := reads_one.1 h2''
    have h3 := rl_tok.1 h3
    have ht : w ≠ c!"typedef" := by rintro rfl; exact h2' _ (by simp) (List.prefix_refl _)
    have ha := ok_attributes hE as h1 h1' fun _ => notBracket hE h2'' (.inr ⟨_, h2⟩)
    obtain ⟨k1, k2, k3, k4, k5, k6, k7, k8, k9, k10, k11, k12⟩ :=
      includes_ko hE (k := .includes) (.inl rfl) ha h2 h2'' h3 hw' h4 ht
    exact .next k1 <| .next k2 <| .next k3 <| .next k4 <| .next k5 <| .next k6 <| .next k7 <|
      .next k8 <| .next k9 <| .next k10 <| .next k11 <| .next k12 <|
      .here (.bind ha (.bind (okIdent hE h2 h2'') (.bind (okKw hE (k := .includes) h3)
        (.bind (okIdent hE hw' h4) (.bind (okSemi hE (rl_tok.1 h5)) .pure)))))
  | implements as l i =>
    obtain ⟨m1, ⟨la, h1, h1'⟩, h⟩ := rl_seq.1 h
    obtain ⟨m2, ⟨lb, ⟨h2, h2'⟩, h2''⟩, h⟩ := rl_seq.1 h
    obtain ⟨m3, h3, h⟩ := rl_seq.1 h
    obtain ⟨m4, h4, h5⟩ := rl_seq.1 h
    obtain ⟨w, rfl, h2⟩ := name_single h2
    obtain ⟨w', hw', h4⟩ := rl_name.1 h4
    have h2'' := reads_one.1 h2''
    have h3 := rl_tok.1 h3
    have ht : w ≠ c!"typedef" := by rintro rfl; exact h2' _ (by simp) (List.prefix_refl _)
    have ha := ok_attributes hE as h1 h1' fun _ => notBracket hE h2'' (.inr ⟨_, h2⟩)
    have il := okIdent hE h2 h2''
    obtain ⟨k1, k2, k3, k4, k5, k6, k7, k8, k9, k10, k11, k12⟩ :=
      includes_ko hE (k := .implements) (.inr rfl) ha h2 h2'' h3 hw' h4 ht
    exact .next k1 <| .next k2 <| .next k3 <| .next k4 <| .next k5 <| .next k6 <| .next k7 <|
      .next k8 <| .next k9 <| .next k10 <| .next k11 <| .next k12 <|
      .next (.right ha (.right il (.left (koKw' hE (k := .implements) h3)))) <|
      .here (.bind ha (.bind il (.bind (okKw hE (k := .implements) h3)
        (.bind (okIdent hE hw' h4) (.bind (okSemi hE (rl_tok.1 h5)) .pure)))))

/-- Every spelling of definitions is read, up to a point where no definition begins. -/
theorem ok_definitions {ds : List Definition} (h : RL Step (definitions ds) s r) (hr : Dull leaf r) :
    Ok leaf G.definitions s r ds :=
  okMany0 hE inferInstance (ok_chain hE inferInstance (fun d _ _ => ok_definition hE d) ds h) hr.definition

end

end Verif
