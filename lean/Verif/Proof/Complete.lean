import Verif.Proof.CharStep
import Verif.Proof.Repetition
import Verif.Proof.Knot

/-!
# Completeness: rules

What a run does on a spelling. `Ok g s r a`: the parser `g` reads from `s` to `r` with result `a`;
`Ko g s`: it fails on `s`.
-/

set_option linter.unusedSectionVars false

namespace Verif
open Nom Spec

variable {σ α β : Type} [DecidableEq σ] {leaf : ∀ α, Leaf α → P σ α}
  {Step : List σ → Str → List σ → Prop} {s m r : List σ}

variable (leaf) in
abbrev Ok (g : G α) (s r : List σ) (a : α) : Prop := OkAt leaf (ntLim leaf) g s r a

variable (leaf) in
abbrev Ko (g : G α) (s : List σ) : Prop := FailsAt leaf (ntLim leaf) g s

/-! ## Reading languages -/

variable (Step) in
/-- A spelling in `L` leads from `s` to `r`. -/
def RL (L : Lang) (s r : List σ) : Prop := ∃ ls, L ls ∧ Reads Step s ls r

theorem Reads.split {a b : List Str} (h : Reads Step s (a ++ b) r) :
    ∃ m, Reads Step s a m ∧ Reads Step m b r := by
  induction a generalizing s with
  | nil => exact ⟨s, .nil, h⟩
  | cons w a ih =>
    cases h with
    | cons h t =>
      obtain ⟨m, h1, h2⟩ := ih t
      exact ⟨m, .cons h h1, h2⟩

theorem reads_one {w : Str} : Reads Step s [w] r ↔ Step s w r := by
  refine ⟨fun h => ?_, .one⟩
  cases h with
  | cons h t => cases t; exact h

theorem reads_nil : Reads Step s [] r ↔ s = r :=
  ⟨fun h => by cases h; rfl, fun h => h ▸ .nil⟩

theorem rl_seq {A B : Lang} : RL Step (A ⨾ B) s r ↔ ∃ m, RL Step A s m ∧ RL Step B m r := by
  constructor
  · rintro ⟨_, ⟨a, b, rfl, ha, hb⟩, h⟩
    obtain ⟨m, h1, h2⟩ := h.split
    exact ⟨m, ⟨a, ha, h1⟩, ⟨b, hb, h2⟩⟩
  · rintro ⟨m, ⟨a, ha, h1⟩, ⟨b, hb, h2⟩⟩
    exact ⟨a ++ b, ⟨a, b, rfl, ha, hb⟩, h1.append h2⟩

theorem rl_tok {w : Str} : RL Step (tok w) s r ↔ Step s w r :=
  ⟨by rintro ⟨_, rfl, h⟩; exact reads_one.1 h, fun h => ⟨[w], rfl, .one h⟩⟩

theorem rl_eps : RL Step eps s r ↔ s = r :=
  ⟨by rintro ⟨_, rfl, h⟩; exact reads_nil.1 h, fun h => ⟨[], rfl, reads_nil.2 h⟩⟩

theorem rl_name {i : Str} : RL Step (name i) s r ↔ ∃ w, name i [w] ∧ Step s w r := by
  constructor
  · rintro ⟨ls, h, h'⟩
    obtain ⟨w, rfl, h⟩ := name_single h
    exact ⟨w, h, reads_one.1 h'⟩
  · rintro ⟨w, h, h'⟩; exact ⟨[w], h, .one h'⟩

theorem rl_string {v : Str} : RL Step (string v) s r ↔ '"' ∉ v ∧ Step s ('"' :: v ++ ['"']) r := by
  constructor
  · rintro ⟨ls, ⟨h, rfl⟩, h'⟩; exact ⟨h, reads_one.1 h'⟩
  · rintro ⟨h, h'⟩; exact ⟨_, ⟨h, rfl⟩, .one h'⟩

theorem rl_parens {A : Lang} : RL Step (parens A) s r ↔
    ∃ m, Step s c!"(" m ∧ ∃ n, RL Step A m n ∧ Step n c!")" r := by
  simp only [parens, rl_seq, rl_tok]

theorem rl_brackets {A : Lang} : RL Step (brackets A) s r ↔
    ∃ m, Step s c!"[" m ∧ ∃ n, RL Step A m n ∧ Step n c!"]" r := by
  simp only [brackets, rl_seq, rl_tok]

theorem rl_braces {A : Lang} : RL Step (braces A) s r ↔
    ∃ m, Step s c!"{" m ∧ ∃ n, RL Step A m n ∧ Step n c!"}" r := by
  simp only [braces, rl_seq, rl_tok]

theorem rl_angles {A : Lang} : RL Step (angles A) s r ↔
    ∃ m, Step s c!"<" m ∧ ∃ n, RL Step A m n ∧ Step n c!">" r := by
  simp only [angles, rl_seq, rl_tok]

theorem rl_comma : RL Step comma s r ↔ Step s c!"," r := rl_tok

theorem Reads.rl {ls : List Str} {L : Lang} (h : Reads Step s ls r) (hl : L ls) : RL Step L s r :=
  ⟨ls, hl, h⟩

/-! ## Leaves -/

section
variable (hE : Exact leaf Step)
include hE

theorem okKw {k : Kw} (h : Step s k.text r) : Ok leaf (G.kw k) s r () := kw_of_step hE.toStepping h

theorem okPunct {p : Punct} (h : Step s p.text r) : Ok leaf (G.punct p) s r () :=
  punct_of_step hE.toStepping h

omit hE in
theorem name_inj {i j w : Str} (h : name i [w]) (h' : name j [w]) : i = j := by
  obtain ⟨h1, h2⟩ := h
  obtain ⟨h3, h4⟩ := h'
  obtain ⟨c, v, rfl, h5, -⟩ := word_cons h1
  obtain ⟨c', v', rfl, h6, -⟩ := word_cons h3
  simp at h2 h4
  rcases h2 with rfl | rfl <;> rcases h4 with h4 | h4 <;> simp at h4 ⊢
  · exact h4
  · obtain ⟨rfl, -⟩ := h4; exact absurd h5 (by decide)
  · obtain ⟨rfl, -⟩ := h4; exact absurd h6 (by decide)
  · exact h4

theorem okIdent {i w : Str} (hw : name i [w]) (h : Step s w r) : Ok leaf G.ident s r i := by
  rcases hE.exact hw h .ident with ⟨v, h1, h2⟩ | ⟨h1, -⟩
  · have : v = i := name_inj (w := w) ⟨h1.2, by simpa using h1.1⟩ hw
    subst this; exact h2
  · exact absurd ⟨by simpa using hw.2, hw.1⟩ (h1 i)

theorem okString {v : Str} (hv : '"' ∉ v) (h : Step s ('"' :: v ++ ['"']) r) :
    Ok leaf G.stringLit s r v := by
  rcases hE.solid (.inr (.inr (.inl ⟨v, hv, rfl⟩))) h .string trivial with ⟨v', h1, h2⟩ | ⟨h1, -⟩
  · have : v' = v := by simpa using h1.1.symm
    subst this; exact h2
  · exact absurd ⟨rfl, hv⟩ (h1 v)

theorem koKw {k : Kw} {w : Str} (hw : Solid w) (h : Step s w r) (hne : w ≠ k.text) :
    Ko leaf (G.kw k) s := by
  rcases hE.solid hw h (.kw k) trivial with ⟨_, h1, -⟩ | ⟨-, h1⟩
  · exact absurd h1 hne
  · exact h1

theorem koPunct {p : Punct} {w : Str} (hw : Solid w) (h : Step s w r) (hne : w ≠ p.text)
    (hp : p ≠ .dot ∧ p ≠ .minus := by decide) : Ko leaf (G.punct p) s := by
  rcases hE.solid hw h (.punct p) hp with ⟨_, h1, -⟩ | ⟨-, h1⟩
  · exact absurd h1 hne
  · exact h1

theorem koIdent {w : Str} (hw : Solid w) (h : Step s w r) (hne : ∀ i, ¬ name i [w]) :
    Ko leaf G.ident s := by
  rcases hE.solid hw h .ident trivial with ⟨i, h1, -⟩ | ⟨-, h1⟩
  · exact absurd ⟨h1.2, by simpa using h1.1⟩ (hne i)
  · exact h1

theorem koStringLit {w : Str} (hw : Solid w) (h : Step s w r) (hne : ∀ v, ¬ string v [w]) :
    Ko leaf G.stringLit s := by
  rcases hE.solid hw h .string trivial with ⟨i, h1, -⟩ | ⟨-, h1⟩
  · exact absurd ⟨h1.2, by rw [h1.1]⟩ (hne i)
  · exact h1

/-- The leaves that read numbers fail on other lexemes. -/
theorem koNum {w : Str} (hw : Solid w) (h : Step s w r) (l : Leaf Str) (hl : l ∈ [.dec, .hex, .oct, .float]) :
    Ko leaf (.leaf l) s := by
  have : Plain l := by simp at hl; rcases hl with rfl | rfl | rfl | rfl <;> trivial
  rcases hE.solid hw h l this with ⟨i, h1, -⟩ | ⟨-, h1⟩
  · refine (number_solid (w := w) (e := []) (w' := w) (e' := []) hw ?_ rfl).elim
    simp at hl
    rcases hl with rfl | rfl | rfl | rfl
    · exact dec_number _ _ h1
    · exact hex_number _ _ h1
    · exact oct_number _ _ h1
    · exact float_number _ _ h1
  · exact h1

theorem notNext {w w' : Str} (hw : Solid w) (h : Step s w r) (hw' : Solid w') (hne : w ≠ w') :
    NotNext Step s w' :=
  fun _ h' => hne (hE.uniq h h' (.inl hw) (.inl hw'))

theorem koKw_of {k : Kw} (h : NotNext Step s k.text) : Ko leaf (G.kw k) s := by
  rcases hE.total _ (.kw k) s with ⟨r, v, h1⟩ | h1
  · obtain ⟨w, h2, h3⟩ := hE.ok h1
    cases h3
    exact absurd h2 (h r)
  · exact h1

theorem koPunct_of {k : Punct} (h : NotNext Step s k.text) : Ko leaf (G.punct k) s := by
  rcases hE.total _ (.punct k) s with ⟨r, v, h1⟩ | h1
  · obtain ⟨w, h2, h3⟩ := hE.ok h1
    cases h3
    exact absurd h2 (h r)
  · exact h1

/-! ## Recursion -/

theorem run_call {α : Type} (N : NT α) : (G.call N).run leaf (ntLim leaf) s =
    (G.body N).run leaf (ntLim leaf) s := ntLim_eq hE.fine N s

theorem okCall {N : NT α} {a : α} (h : Ok leaf (G.body N) s r a) : Ok leaf (.call N) s r a := by
  rw [Ok, OkAt, run_call hE]; exact h

theorem koCall {N : NT α} (h : Ko leaf (G.body N) s) : Ko leaf (.call N) s := by
  obtain ⟨p, k, h⟩ := h
  exact ⟨p, k, by rw [run_call hE]; exact h⟩

/-! ## Repetition -/

theorem fine_suff {g : G α} {b : Bool} (h : Guarded true g b) :
    Suff (g.run leaf (ntLim leaf)) := suff_of_fine (parseWith_fine hE.fine h)

theorem ok_progress {g : G α} (hg : Guarded true g true) {a : α} (h : Ok leaf g s r a) : r ≠ s := by
  have h1 := parseWith_fine hE.fine hg s
  rw [G.parseWith, h] at h1
  rintro rfl
  have := h1.2 rfl
  omega

theorem okMany0 {g : G α} (hg : Guarded true g true) {as : List α}
    (h : Chain (g.run leaf (ntLim leaf)) s as r) (h' : Ko leaf g r) : Ok leaf (.many0 g) s r as :=
  (many0_ok_iff (fine_suff hE hg)).2 ⟨h, h'⟩

/-- The elements of a separated list, read in turn. -/
def Elems {σ α β : Type} (sep : P σ β) (p : P σ α) (s : List σ) (as : List α) (r : List σ) : Prop :=
  match as with
  | [] => s = r
  | a :: as => ∃ m, p s = .ok m a ∧ SepChain sep p m as r

theorem okSepList {g : G α} {sep : G β} (hg : Guarded true g true) (hs : Guarded true sep true)
    {as : List α} (h : Elems (sep.run leaf (ntLim leaf)) (g.run leaf (ntLim leaf)) s as r)
    (h1 : Ko leaf sep r) (h2 : Ko leaf g r) : Ok leaf (.separatedList sep g) s r as := by
  refine (separatedList_ok_iff (fine_suff hE hs) (fine_suff hE hg)).2 ?_
  cases as with
  | nil => cases h; exact .inl ⟨rfl, rfl, h2⟩
  | cons a as =>
    obtain ⟨m, h3, h4⟩ := h
    exact .inr ⟨a, as, m, rfl, h3, ok_progress hE hg h3, h4, .inl h1⟩

theorem okSepNonempty {g : G α} {sep : G β} (hg : Guarded true g true) (hs : Guarded true sep true)
    {as : List α} (hne : as ≠ [])
    (h : Elems (sep.run leaf (ntLim leaf)) (g.run leaf (ntLim leaf)) s as r)
    (h1 : Stops (sep.run leaf (ntLim leaf)) (g.run leaf (ntLim leaf)) r) :
    Ok leaf (.separatedNonemptyList sep g) s r as := by
  refine (separatedNonemptyList_ok_iff (fine_suff hE hs) (fine_suff hE hg)).2 ?_
  cases as with
  | nil => exact absurd rfl hne
  | cons a as =>
    obtain ⟨m, h3, h4⟩ := h
    exact ⟨a, as, m, rfl, h3, ok_progress hE hg h3, h4, h1⟩

/-- One more element. -/
theorem elems_cons {g : G α} {sep : G β} {a : α} {b : β} {as : List α} {n : List σ}
    (hs : Guarded true sep true) (h1 : Ok leaf g s m a) (h2 : Ok leaf sep m n b) (hne : as ≠ [])
    (h3 : Elems (sep.run leaf (ntLim leaf)) (g.run leaf (ntLim leaf)) n as r) :
    Elems (sep.run leaf (ntLim leaf)) (g.run leaf (ntLim leaf)) s (a :: as) r := by
  cases as with
  | nil => exact absurd rfl hne
  | cons a' as =>
    obtain ⟨m', h4, h5⟩ := h3
    exact ⟨m, h1, .cons h2 (ok_progress hE hs h2) h4 h5⟩

end

/-! ## Failure at the first lexeme -/

variable (leaf) in
/-- No construct of the grammar begins at `s`, except perhaps a union. -/
structure Dull (s : List σ) : Prop where
  kw : ∀ k, Ko leaf (G.kw k) s
  ident : Ko leaf G.ident s
  bracket : Ko leaf (G.punct .openBracket) s

theorem Dull.attrs (h : Dull leaf s) : Ok leaf G.attrs s s none := .none (.left h.bracket)

theorem Dull.optKw (h : Dull leaf s) (k : Kw) : Ok leaf (G.optKw k) s s false := .optKwF (h.kw k)

theorem Dull.nonAnyType (h : Dull leaf s) : Ko leaf G.nonAnyType s := by
  have b : ∀ b, Ko leaf (G.builtin b) s := fun b => .mayBeNull (.kwAs (h.kw _))
  refine .altsCons (.left (h.kw _)) <| .altsCons (.mayBeNull (.integerType (h.kw _) (h.kw _) (h.kw _))) <|
    .altsCons (.mayBeNull (.floatingPointType (h.kw _) (h.kw _) (h.kw _))) <|
    .altsCons (b _) <| .altsCons (b _) <| .altsCons (b _) <| .altsCons (b _) <| .altsCons (b _) <|
    .altsCons (b _) <| .altsCons (.mayBeNull (.left (h.kw _))) <| .altsCons (b _) <|
    .altsCons (b _) <| .altsCons (b _) <| .altsCons (b _) <| .altsCons (b _) <| .altsCons (b _) <|
    .altsCons (b _) <| .altsCons (b _) <| .altsCons (b _) <| .altsCons (b _) <| .altsCons (b _) <|
    .altsCons (b _) <| .altsCons (b _) <| .altsCons (b _) <| .altsCons (b _) <| .altsCons (b _) <|
    .altsCons (.mayBeNull (.left (h.kw _))) <| .altsCons (.mayBeNull (.left (h.kw _))) <|
    .altsCons (.mayBeNull h.ident) .altsNil

theorem Dull.singleType (h : Dull leaf s) : Ko leaf G.singleType s :=
  .altsCons (.kwAs (h.kw _)) <| .altsCons (.variant h.nonAnyType) .altsNil

variable (leaf) in
/-- No construct of the grammar begins at `s`. -/
structure Dead (s : List σ) : Prop extends Dull leaf s where
  paren : Ko leaf (G.punct .openParen) s

theorem Dead.type (h : Dead leaf s) : Ko leaf G.type s :=
  .altsCons (.variant h.singleType) <| .altsCons (.mayBeNull (.left h.paren)) .altsNil

theorem Dead.returnType (h : Dead leaf s) : Ko leaf G.returnType s :=
  .altsCons (.kwAs (h.kw _)) <| .altsCons (.variant h.type) .altsNil

theorem Dead.unionMember (h : Dead leaf s) : Ko leaf G.unionMemberType s :=
  .altsCons (.right h.attrs (.left h.nonAnyType)) <| .altsCons (.mayBeNull (.left h.paren)) .altsNil

theorem Dead.attributedType (h : Dead leaf s) : Ko leaf G.attributedType s :=
  .right h.attrs (.left h.type)

theorem Dead.argument (h : Dead leaf s) : Ko leaf G.argument s :=
  .altsCons (.right h.attrs (.right (h.optKw _) (.left h.attributedType))) <|
  .altsCons (.right h.attrs (.left h.type)) .altsNil

theorem Dull.extAttr (h : Dull leaf s) : Ko leaf G.extAttr s :=
  .altsCons (.left h.ident) <| .altsCons (.left h.ident) <| .altsCons (.left h.ident) <|
  .altsCons (.left h.ident) <| .altsCons (.left h.ident) <| .altsCons (.left h.ident) .altsNil

theorem Dull.constMember (h : Dull leaf s) : Ko leaf G.constMember s :=
  .right h.attrs (.left (h.kw _))

theorem Dull.stringifierMember (h : Dull leaf s) : Ko leaf G.stringifierMember s :=
  .right h.attrs (.left (h.kw _))

theorem Dead.interfaceMember (h : Dead leaf s) : Ko leaf G.interfaceMember s :=
  .altsCons (.variant h.constMember) <|
  .altsCons (.variant (.right h.attrs (.right (.none (.altsCons (.kwAs (h.kw _)) <|
    .altsCons (.kwAs (h.kw _)) <| .altsCons (.kwAs (h.kw _)) .altsNil))
    (.right (h.optKw _) (.left (h.kw _)))))) <|
  .altsCons (.variant (.right h.attrs (.left (h.kw _)))) <|
  .altsCons (.variant (.right h.attrs (.right (.none (.altsCons (.kwAs (h.kw _)) <|
    .altsCons (.kwAs (h.kw _)) .altsNil)) (.right (.none (.altsCons (.kwAs (h.kw _)) <|
    .altsCons (.kwAs (h.kw _)) <| .altsCons (.kwAs (h.kw _)) <| .altsCons (.kwAs (h.kw _)) .altsNil))
    (.left h.returnType))))) <|
  .altsCons (.variant (.altsCons (.right h.attrs (.left (h.kw _))) <|
    .altsCons (.right h.attrs (.left (h.kw _))) .altsNil)) <|
  .altsCons (.variant (.altsCons (.right h.attrs (.left (h.kw _))) <|
    .altsCons (.right h.attrs (.left (h.kw _))) .altsNil)) <|
  .altsCons (.variant (.right h.attrs (.right (h.optKw _) (.left (h.kw _))))) <|
  .altsCons (.variant (.right h.attrs (.right (h.optKw _) (.left (h.kw _))))) <|
  .altsCons (.variant h.stringifierMember) .altsNil

theorem Dead.mixinMember (h : Dead leaf s) : Ko leaf G.mixinMember s :=
  .altsCons (.variant h.constMember) <|
  .altsCons (.variant (.right h.attrs (.right (h.optKw _) (.left h.returnType)))) <|
  .altsCons (.variant (.right h.attrs (.right (h.optKw _) (.right (h.optKw _) (.left (h.kw _)))))) <|
  .altsCons (.variant h.stringifierMember) .altsNil

theorem Dead.namespaceMember (h : Dead leaf s) : Ko leaf G.namespaceMember s :=
  .altsCons (.variant h.constMember) <|
  .altsCons (.variant (.right h.attrs (.left h.returnType))) <|
  .altsCons (.variant (.right h.attrs (.left (h.kw _)))) .altsNil

theorem Dead.dictionaryMember (h : Dead leaf s) : Ko leaf G.dictionaryMember s :=
  .right h.attrs (.right (h.optKw _) (.left h.type))

theorem Dull.definition (h : Dull leaf s) : Ko leaf G.definition s := by
  have k : ∀ {α : Type} {k : Kw} {f : Unit → G α}, Ko leaf (G.kw k >>= f) s := .left (h.kw _)
  have i : ∀ {α : Type} {f : Str → G α}, Ko leaf (G.ident >>= f) s := .left h.ident
  exact .altsCons (.right h.attrs k) <| .altsCons (.right h.attrs k) <| .altsCons (.right h.attrs k) <|
    .altsCons (.right h.attrs k) <| .altsCons (.right h.attrs k) <| .altsCons (.right h.attrs k) <|
    .altsCons (.right h.attrs k) <| .altsCons (.right h.attrs k) <| .altsCons (.right h.attrs k) <|
    .altsCons (.right h.attrs k) <| .altsCons (.right h.attrs k) <| .altsCons (.right h.attrs k) <|
    .altsCons (.right h.attrs i) <| .altsCons (.right h.attrs i) .altsNil

theorem punct_inj {p q : Punct} (h : p.text = q.text) : p = q := by
  cases p <;> cases q <;> first | rfl | (simp [Punct.text] at h)

section
variable (hE : Exact leaf Step)
include hE

theorem dull_punct {p : Punct} (h : Step s p.text r)
    (hp : p ≠ .dot ∧ p ≠ .minus ∧ p ≠ .openBracket := by decide) : Dull leaf s where
  kw k := koKw hE (solid_punct hp.1 hp.2.1) h (by cases p <;> cases k <;> simp [Punct.text, Kw.text])
  ident := koIdent hE (solid_punct hp.1 hp.2.1) h (fun i h => name_ne_punct h)
  bracket := koPunct hE (solid_punct hp.1 hp.2.1) h fun h => hp.2.2 (punct_inj h)

theorem dead_punct {p : Punct} (h : Step s p.text r)
    (hp : p ≠ .dot ∧ p ≠ .minus ∧ p ≠ .openBracket ∧ p ≠ .openParen := by decide) : Dead leaf s where
  toDull := dull_punct hE h ⟨hp.1, hp.2.1, hp.2.2.1⟩
  paren := koPunct hE (solid_punct hp.1 hp.2.1) h fun h => hp.2.2.2 (punct_inj h)

omit hE in
theorem dead_end (h : ∀ α l, Fails (leaf α l) s) : Dead leaf s :=
  ⟨⟨fun _ => h _ _, h _ _, h _ _⟩, h _ _⟩

end

end Verif
