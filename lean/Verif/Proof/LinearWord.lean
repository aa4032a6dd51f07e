import Verif.Proof.LinearList

/-! # Alternatives that are told apart by a word -/

namespace Verif.Linear
open Nom Spec

variable {α β : Type}

open Lean in
/-- The symbols do not begin with other characters. -/
macro "refuse_table" : command => do
  let signs := ['(', ')', '<', '>', '[', ']', '{', '}', '=', ',', ';', ':', '?', '.']
  let puncts := [(`openParen, '('), (`closeParen, ')'), (`openBracket, '['), (`closeBracket, ']'), (`openBrace, '{'),
    (`closeBrace, '}'), (`lessThan, '<'), (`greaterThan, '>'), (`comma, ','), (`ellipsis, '.'), (`colon, ':'),
    (`semiColon, ';'), (`assign, '='), (`qMark, '?'), (`asterisk, '*')]
  let mut out := #[]
  for c in signs do
    for (p, d) in puncts do
      if c != d then
        out := out.push (← `(instance : Refuse $(quote c) (.punct $(mkIdent (`Verif.Punct ++ p))) := refuse_punct (by decide)))
  return ⟨mkNullNode out⟩

refuse_table

/-! ## Words -/

theorem split_word {u u' e e' : Str} (h : u ++ e = u' ++ e') (hu : ∀ c ∈ u, isIdentChar c = true)
    (hu' : ∀ c ∈ u', isIdentChar c = true) (he : NameEnd e) (he' : NameEnd e') : u = u' ∧ e = e' := by
  rcases List.append_eq_append_iff.1 h with ⟨as, rfl, rfl⟩ | ⟨as, rfl, rfl⟩
  · cases as with
    | nil => simp
    | cons c as =>
      have h1 := he c (as ++ e') rfl
      have h2 := hu' c (by simp)
      rw [h1] at h2
      cases h2
  · cases as with
    | nil => simp
    | cons c as =>
      have h1 := he' c (as ++ e) rfl
      have h2 := hu c (by simp)
      rw [h1] at h2
      cases h2

theorem kw_chars (k : Kw) : ∀ c ∈ k.text, isIdentChar c = true := by cases k <;> decide

theorem ident_chars {w v : Str} (h : LeafText .ident w v) : ∀ c ∈ w, isIdentChar c = true := by
  obtain ⟨h1, h2⟩ := h
  obtain ⟨c, v', rfl, h3, h4⟩ := word_iff.1 h2
  have h5 : ∀ d ∈ c :: v', isIdentChar d = true := by
    intro d hd
    rcases List.mem_cons.1 hd with rfl | hd
    · simp [isIdentChar, Char.isAlphanum, h3]
    · exact h4 d hd
  rcases h1 with rfl | rfl
  · exact h5
  · intro d hd
    rcases List.mem_cons.1 hd with rfl | hd
    · decide
    · exact h5 d hd

theorem kw_kw {k j : Kw} {s r r' : Str} {u v : Unit} (h : charLeaf _ (.kw k) s = .ok r u) (h' : charLeaf _ (.kw j) s = .ok r' v) :
    k.text = j.text ∧ r = r' := by
  obtain ⟨w, e, h1, h2, h3, rfl⟩ := charLeaf_ok_iff.1 h
  obtain ⟨w', e', h1', h2', h3', rfl⟩ := charLeaf_ok_iff.1 h'
  have h2 : w = k.text := h2
  have h2' : w' = j.text := h2'
  subst h2 h2'
  obtain ⟨h4, h5⟩ := split_word (h1.symm.trans h1') (kw_chars k) (kw_chars j) h3 h3'
  exact ⟨h4, by rw [h5]⟩

theorem kw_ident {k : Kw} {s r r' : Str} {u : Unit} {v : Str} (h : charLeaf _ (.kw k) s = .ok r u)
    (h' : charLeaf _ .ident s = .ok r' v) : r = r' := by
  obtain ⟨w, e, h1, h2, h3, rfl⟩ := charLeaf_ok_iff.1 h
  obtain ⟨w', e', h1', h2', h3', rfl⟩ := charLeaf_ok_iff.1 h'
  have h2 : w = k.text := h2
  subst h2
  obtain ⟨h4, h5⟩ := split_word (h1.symm.trans h1') (kw_chars k) (ident_chars h2') h3 h3'
  rw [h5]

/-- The text begins with the keyword and a `<`. -/
def Generic (w : Kw) (s : Str) : Prop := ∃ r u, charLeaf _ (.kw w) s = .ok r u ∧ At '<' r

/-- On texts that begin with `<`, the parser consumes nothing if it accepts. -/
class Stay (g : G α) : Prop where
  stay : ∀ s n r v, At '<' s → Runs charLeaf g s n (.ok r v) → r = s

/-- On texts that begin with the keyword and a `<`, the parser stops before the keyword or before the `<` if it accepts. -/
class Sticky (w : Kw) (g : G α) : Prop where
  sticky : ∀ s n r v, Generic w s → Runs charLeaf g s n (.ok r v) → At '<' r ∨ r = s

/-- On texts that begin with the keyword and a `<`, the parser fails. -/
class Dead (w : Kw) (g : G α) : Prop where
  dead : ∀ s n r v, Generic w s → ¬ Runs charLeaf g s n (.ok r v)

instance {g : G α} {k : Nat} [h : Blunt '<' g k] : Stay g := ⟨fun s n r v hs hr => by
  obtain ⟨-, e, h⟩ := h.blunt _ _ _ hs hr
  cases h⟩
instance {g : G α} {k : Nat} [h : Skips '<' g k] : Stay g := ⟨fun s n r v hs hr => by
  obtain ⟨-, ⟨e, h⟩ | ⟨v, h⟩⟩ := h.skips _ _ _ hs hr
  · cases h
  · cases h; rfl⟩

variable {w : Kw}

theorem sticky_kw {k : Kw} : Sticky w (.leaf (.kw k)) := ⟨fun s n r v ⟨q, u, h1, h2⟩ hr => by
  obtain ⟨-, e⟩ := Runs.inv hr
  obtain ⟨-, rfl⟩ := kw_kw h1 e.symm
  exact .inl h2⟩
instance {k : Kw} : Sticky w (G.kw k) := sticky_kw
instance : Sticky w G.ident := ⟨fun s n r v ⟨q, u, h1, h2⟩ hr => by
  obtain ⟨-, e⟩ := Runs.inv hr
  obtain rfl := kw_ident h1 e.symm
  exact .inl h2⟩
instance {a : α} : Sticky w (pure a : G α) := ⟨fun s n r v _ hr => by
  obtain ⟨-, e⟩ := Runs.inv hr
  cases e
  exact .inr rfl⟩
instance {g : G α} {f : α → G β} [hg : Sticky w g] [hf : ∀ a, Sticky w (f a)] [hf' : ∀ a, Stay (f a)] : Sticky w (g >>= f) :=
  ⟨fun s n r v hs hr => by
  have := Runs.inv (show Runs charLeaf (.bind g f) s n _ from hr)
  simp only [Runs.Inv] at this
  rcases this with ⟨q, u, i, j, h1, h2, rfl⟩ | ⟨e, h1, h2⟩
  · rcases hg.sticky _ _ _ _ hs h1 with h | rfl
    · obtain rfl := (hf' u).stay _ _ _ _ h h2
      exact .inl h
    · exact (hf u).sticky _ _ _ _ hs h2
  · cases h2⟩
instance {g : G α} [hg : Sticky w g] : Sticky w (.opt g) := ⟨fun s n r v hs hr => by
  have := Runs.inv hr
  simp only [Runs.Inv] at this
  rcases this with ⟨q, u, h1, h2⟩ | ⟨p, q, h1, h2⟩ | ⟨e, -, h1, h2⟩
  · cases h2; exact hg.sticky _ _ _ _ hs h1
  · cases h2; exact .inr rfl
  · cases h2⟩
instance (priority := high) {g : G α} [hg : Dead w g] : Sticky w g := ⟨fun s n r v hs hr => (hg.dead _ _ _ _ hs hr).elim⟩
instance : Sticky w (G.alts ([] : List (G α))) := ⟨fun s n r v hs hr => by
  obtain ⟨-, e⟩ := Runs.inv hr
  cases e⟩
instance {g : G α} {gs : List (G α)} [hg : Sticky w g] [hh : Sticky w (G.alts gs)] : Sticky w (G.alts (g :: gs)) :=
  ⟨fun s n r v hs hr => by
  have := Runs.inv (show Runs charLeaf (.orElse g (G.alts gs)) s n _ from hr)
  simp only [Runs.Inv] at this
  rcases this with ⟨q, u, h1, h2⟩ | ⟨p, q, i, j, h1, h2, rfl⟩ | ⟨e, -, h1, h2⟩
  · cases h2; exact hg.sticky _ _ _ _ hs h1
  · exact hh.sticky _ _ _ _ hs h2
  · cases h2⟩
instance {k : Kw} : Sticky w (G.optKw k) := by unfold G.optKw; infer_instance
instance {p : Punct} [h : Sticky w (G.punct p)] : Sticky w (G.optPunct p) := by unfold G.optPunct; infer_instance
instance {k : Kw} {a : α} : Sticky w (G.kwAs k a) := by unfold G.kwAs; infer_instance
instance {f : α → β} {g : G α} [hg : Sticky w g] : Sticky w (G.variant f g) := by unfold G.variant; infer_instance
instance : Sticky w (G.punct .qMark) := ⟨fun s n r v ⟨q, u, h1, h2⟩ hr => by
  obtain ⟨-, e⟩ := Runs.inv hr
  obtain ⟨w', e', h1', h2', h3', -⟩ := charLeaf_ok_iff.1 e.symm
  obtain ⟨w'', e'', h1'', h2'', h3'', -⟩ := charLeaf_ok_iff.1 h1
  have h2' : w' = c!"?" := h2'
  have h2'' : w'' = w.text := h2''
  subst h2' h2''
  rw [h1''] at h1'
  obtain ⟨c, t, h4⟩ : ∃ c t, w.text = c :: t := by cases w <;> exact ⟨_, _, rfl⟩
  rw [h4] at h1'
  have h5 := kw_chars w c (by rw [h4]; simp)
  simp at h1'
  rw [h1'.1] at h5
  exact absurd h5 (by decide)⟩
instance {f : α → Bool → β} {g : G α} [hg : Sticky w g] : Sticky w (G.mayBeNull f g) := by unfold G.mayBeNull; infer_instance

theorem dead_kw {k : Kw} {f : Unit → G α} (h : w.text ≠ k.text) : Dead w (.bind (G.kw k) f) := ⟨fun s n r v hs hr => by
  have := Runs.inv hr
  simp only [Runs.Inv] at this
  rcases this with ⟨q, u, i, j, h1, h2, rfl⟩ | ⟨e, h1, h2⟩
  · obtain ⟨_, _, h3, -⟩ := hs
    obtain ⟨-, e⟩ := Runs.inv (show Runs charLeaf (.leaf (.kw k)) s i _ from h1)
    exact h (kw_kw h3 e.symm).1
  · cases h2⟩
instance {f : α → Bool → β} {g : G α} [hg : Dead w g] : Dead w (G.mayBeNull f g) := ⟨fun s n r v hs hr => by
  have := Runs.inv (show Runs charLeaf (.bind g _) s n _ from hr)
  simp only [Runs.Inv] at this
  rcases this with ⟨q, u, i, j, h1, h2, rfl⟩ | ⟨e, h1, h2⟩
  · exact hg.dead _ _ _ _ hs h1
  · cases h2⟩

instance : Dead .promise G.sequenceType := dead_kw (by decide)
instance : Dead .promise G.frozenArrayType := dead_kw (by decide)
instance : Dead .promise G.recordType := dead_kw (by decide)
instance : Dead .sequence G.frozenArrayType := dead_kw (by decide)
instance : Dead .sequence G.recordType := dead_kw (by decide)
instance : Dead .frozenArray G.recordType := dead_kw (by decide)

/-- The parser fails at once unless the text begins with the keyword and a `<`. -/
class Deep (w : Kw) (g : G α) : Prop where
  deep : ∀ s n x, Runs charLeaf g s n x → Generic w s ∨ n ≤ 2 ∧ ∃ e, x = .err e

theorem deep_generics {g : G α} {s q : Str} {u : Unit} {n : Nat} {x : Res Char α} (h : charLeaf _ (.kw w) s = .ok q u)
    (hr : Runs charLeaf (G.generics g) q n x) : Generic w s ∨ n ≤ 1 ∧ ∃ e, x = .err e := by
  have := Runs.inv (show Runs charLeaf (.bind (G.punct .lessThan) _) _ _ _ from hr)
  simp only [Runs.Inv] at this
  rcases this with ⟨q'', u'', i'', j'', h5, h6, -⟩ | ⟨e, h5, rfl⟩
  · obtain ⟨rfl, e''⟩ := punct_runs h5
    exact .inl ⟨_, _, h, leaf_at rfl e''.symm⟩
  · obtain ⟨rfl, e''⟩ := punct_runs h5
    exact .inr ⟨Nat.le_refl _, e, rfl⟩

theorem deep_kw {g : G α} : Deep w (.bind (G.kw w) fun _ => G.generics g) := ⟨fun s n x hr => by
  have := Runs.inv hr
  simp only [Runs.Inv] at this
  rcases this with ⟨q, u, i, j, h1, h2, rfl⟩ | ⟨e, h1, rfl⟩
  · obtain ⟨rfl, e'⟩ := Runs.inv (show Runs charLeaf (.leaf (.kw w)) s i _ from h1)
    exact (deep_generics e'.symm h2).imp_right fun h => ⟨by omega, h.2⟩
  · obtain ⟨rfl, e'⟩ := Runs.inv (show Runs charLeaf (.leaf (.kw w)) s n _ from h1)
    exact .inr ⟨by omega, e, rfl⟩⟩

theorem deep_kw' {g : G α} {f : α → G β} : Deep w (.bind (G.kw w) fun _ => .bind (G.generics g) f) := ⟨fun s n x hr => by
  have := Runs.inv hr
  simp only [Runs.Inv] at this
  rcases this with ⟨q, u, i, j, h1, h2, rfl⟩ | ⟨e, h1, rfl⟩
  · obtain ⟨rfl, e'⟩ := Runs.inv (show Runs charLeaf (.leaf (.kw w)) s i _ from h1)
    have := Runs.inv h2
    simp only [Runs.Inv] at this
    rcases this with ⟨q', u', i', j', h3, h4, rfl⟩ | ⟨e, h3, rfl⟩
    · rcases deep_generics e'.symm h3 with h | ⟨-, e, h⟩
      · exact .inl h
      · cases h
    · exact (deep_generics e'.symm h3).imp_right fun h => ⟨by omega, e, rfl⟩
  · obtain ⟨rfl, e'⟩ := Runs.inv (show Runs charLeaf (.leaf (.kw w)) s n _ from h1)
    exact .inr ⟨by omega, e, rfl⟩⟩

instance : Deep .promise G.promiseType := deep_kw'
instance : Deep .sequence G.sequenceType := deep_kw
instance : Deep .frozenArray G.frozenArrayType := deep_kw
instance : Deep .record G.recordType := deep_kw
instance {f : α → Bool → β} {g : G α} [hg : Deep w g] : Deep w (G.mayBeNull f g) := ⟨fun s n x hr => by
  have := Runs.inv (show Runs charLeaf (.bind g _) s n _ from hr)
  simp only [Runs.Inv] at this
  rcases this with ⟨q, u, i, j, h1, h2, rfl⟩ | ⟨e, h1, rfl⟩
  · rcases hg.deep _ _ _ h1 with h | ⟨-, e, h⟩
    · exact .inl h
    · cases h
  · exact (hg.deep _ _ _ h1).imp_right fun h => ⟨h.1, e, rfl⟩⟩

theorem lin_word_or {A : Str → Nat} {l : Nat} {g h : G α} {k k' : Nat} (w : Kw) (hd : Deep w g)
    (hh : Sticky w h) (hs : Guarded true h true) (hg : Lin A l g [] k) (hl : Lin A l h ['<'] k') :
    Lin A l (.orElse g h) ['<'] (k + 2 + k') :=
  lin_orElse (hg.weaken fun _ h => nomatch h) hl fun s n e m r v h1 h2 => by
    rcases hd.deep _ _ _ h1 with h3 | h3
    · refine .inr ⟨'<', by simp, ?_⟩
      rcases hh.sticky _ _ _ _ h3 h2 with h4 | rfl
      · exact h4
      · have := (runs_fine hs h2).2 rfl
        omega
    · exact .inl h3.1

end Verif.Linear
