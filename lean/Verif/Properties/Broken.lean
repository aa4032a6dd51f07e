import Verif.Proof.Broken

/-! # C79: lists in texts with an error -/

namespace Verif.Properties
open Nom Spec Longest

variable {α : Type} {g : G α} {L : α → Lang}

theorem vec_ok (h : WholeOf g L) (s : Str) : ∃ r as, (G.many0 g).parse s = .ok r as := by
  suffices ∃ r as, Chain g.parse s as r ∧ Fails g.parse r from
    let ⟨r, as, h'⟩ := this
    ⟨r, as, (vec_iff h).2 h'⟩
  induction hn : s.length using Nat.strongRecOn generalizing s with
  | ind n ih =>
    rcases total (whole_guarded h) s with ⟨m, a, h1, -⟩ | h1
    · have hm := whole_progress h h1
      have hl : m.length < n := by
        have := whole_suff h _ _ _ h1
        rcases Nat.lt_or_ge m.length n with hl | hl
        · exact hl
        · exact absurd (this.eq_of_length_le (hn ▸ hl)) hm
      obtain ⟨r, as, h2, h3⟩ := ih _ hl m rfl
      exact ⟨r, a :: as, .cons h1 hm h2, h3⟩
    · exact ⟨s, [], .nil, h1⟩

/-- Behind a text that is read entirely, whatever follows it, reading goes on as if what follows were the whole text. -/
theorem C79_extend (h : WholeOf g L) {w : Str} {as : List α} (hw : (G.many0 g).parse w = .ok [] as) (ha : as ≠ [])
    (q r : Str) (bs : List α) :
    (G.many0 g).parse (w ++ q) = .ok r bs ↔ ∃ e bs', Skips q e ∧ (G.many0 g).parse e = .ok r bs' ∧ bs = as ++ bs' := by
  have h1 := chain_replace h ((vec_iff h).1 hw).1 w (by simp) ha q
  have key : ∀ r' bs', (G.many0 g).parse (strip q) = .ok r' bs' → (G.many0 g).parse (w ++ q) = .ok r' (as ++ bs') :=
    fun r' bs' h2 =>
      have ⟨h3, h4⟩ := (vec_iff h).1 h2
      (vec_iff h).2 ⟨Chain.trans h1 h3, h4⟩
  constructor
  · intro h2
    obtain ⟨r', bs', h3⟩ := vec_ok h (strip q)
    cases h2.symm.trans (key _ _ h3)
    exact ⟨_, _, skips_strip q, h3, rfl⟩
  · rintro ⟨e, bs', ⟨t, rfl, ht, hn⟩, h2, rfl⟩
    rw [strip_trivia ht, strip_of_noTrivia hn] at key
    exact key _ _ h2

/-- Two members, then something that is not a member. -/
example : ∃ ms, (G.many0 G.dictionaryMember).parse c!"long a; any b; /* */ any any c" = .ok c!"any any c" ms ∧ ms.length = 2 :=
  ⟨_, (C79_extend .dictionaryMember (w := c!"long a; any b;") rfl nofun c!" /* */ any any c" _ _).2
    ⟨c!"any any c", [], skips_strip _, rfl, rfl⟩, rfl⟩

/-- What was read in front of an error is accepted alone, with the same result. -/
theorem C79_alone (h : WholeOf g L) {w r : Str} {as : List α} (hw : (G.many0 g).parse (w ++ r) = .ok r as) (ha : as ≠ []) :
    (G.many0 g).parse w = .ok [] as := by
  have := chain_replace h ((vec_iff h).1 hw).1 w rfl ha []
  rw [List.append_nil] at this
  exact (vec_iff h).2 ⟨this, fails_nil h⟩

example : (G.many0 G.dictionaryMember).parse c!"long a; any b; " = .ok [] [
    ⟨none, false, .single (.nonAny (.integer (.long false) false)), c!"a", none⟩,
    ⟨none, false, .single .any, c!"b", none⟩] :=
  C79_alone .dictionaryMember (r := c!"any any c") rfl nofun

theorem chain_noTrivia (h : WholeOf g L) {s r : Str} {as : List α} (hc : Chain g.parse s as r) : as ≠ [] → NoTrivia r := by
  induction hc with
  | nil => exact fun ha => absurd rfl ha
  | @cons s m r a as h1 h2 h3 ih =>
    intro _
    by_cases ha : as = []
    · subst ha
      cases h3
      exact ((C47_whole h _ _ _).1 h1).2
    · exact ih ha

/-- The list that is returned is that of the longest beginning of the text that is accepted by itself. -/
theorem C79_longest (h : WholeOf g L) (s r : Str) (as : List α) (ha : as ≠ []) :
    (G.many0 g).parse s = .ok r as ↔ (∃ w, s = w ++ r ∧ (G.many0 g).parse w = .ok [] as) ∧ NoTrivia r ∧
      ∀ p q bs, s = p ++ q → (G.many0 g).parse p = .ok [] bs → bs <+: as := by
  constructor
  · intro hs
    have hc := ((vec_iff h).1 hs).1
    obtain ⟨w, rfl⟩ := chain_suffix h hc
    refine ⟨⟨w, rfl, C79_alone h hs ha⟩, chain_noTrivia h hc ha, ?_⟩
    intro p q bs e hp
    by_cases hb : bs = []
    · subst hb; exact List.nil_prefix
    · rw [e] at hs
      obtain ⟨_, bs', -, -, rfl⟩ := (C79_extend h hp hb _ _ _).1 hs
      exact List.prefix_append _ _
  · rintro ⟨⟨w, rfl, hw⟩, hr, hm⟩
    obtain ⟨r', cs, hs⟩ := vec_ok h (w ++ r)
    obtain ⟨e, bs, ⟨t, h1, h2, h3⟩, h4, rfl⟩ := (C79_extend h hw ha _ _ _).1 hs
    obtain rfl : t = [] := hr t e h1 h2
    obtain rfl : r = e := h1
    obtain ⟨v, hv⟩ := chain_suffix h ((vec_iff h).1 hs).1
    have h5 := hm v r' _ hv.symm (C79_alone h (by rw [hv]; exact hs) (by simp [ha]))
    obtain rfl : bs = [] := by
      have := h5.length_le
      rw [List.length_append] at this
      exact List.eq_nil_of_length_eq_zero (by omega)
    have h6 := ((vec_iff h).1 h4).1
    cases h6
    simpa using hs

example (p q : Str) (bs : List DictionaryMember) (e : c!"long a; any b; any any c" = p ++ q)
    (hp : (G.many0 G.dictionaryMember).parse p = .ok [] bs) : bs.length ≤ 2 :=
  (((C79_longest .dictionaryMember c!"long a; any b; any any c" c!"any any c" [_, _] nofun).1 rfl).2.2 p q bs e hp).length_le

/-- For a text with an error, Definitions::parse returns what weedle::parse returns for the longest beginning of the text that
weedle::parse accepts. -/
theorem C79_document (s r : Str) (ds : List Definition) (hd : ds ≠ []) :
    G.definitions.parse s = .ok r ds ↔ (∃ w, s = w ++ r ∧ weedleParse w = .ok ds) ∧ NoTrivia r ∧
      ∀ p q ds', s = p ++ q → weedleParse p = .ok ds' → ds' <+: ds := by
  simp only [weedleParse_ok_iff]
  exact C79_longest .definition s r ds hd

example : weedleParse c!"A includes B; " = .ok [.includesStatement none c!"A" c!"B"] := by
  obtain ⟨⟨w, h1, h2⟩, -⟩ := (C79_document c!"A includes B; enum {};" c!"enum {};" [_] nofun).1 rfl
  obtain rfl : c!"A includes B; " = w := List.append_cancel_right h1
  exact h2

/-- Nothing is returned exactly if weedle::parse accepts no beginning of the text with a definition in it. -/
theorem C79_none (s : Str) : (∃ r, G.definitions.parse s = .ok r []) ↔ ∀ p q ds, s = p ++ q → weedleParse p = .ok ds → ds = [] := by
  simp only [weedleParse_ok_iff]
  constructor
  · rintro ⟨r, hs⟩ p q ds rfl hp
    by_cases hd : ds = []
    · exact hd
    · obtain ⟨_, bs, -, -, e⟩ := (C79_extend .definition hp hd _ _ _).1 hs
      exact absurd (List.append_eq_nil_iff.1 e.symm).1 hd
  · intro hn
    obtain ⟨r, ds, hs⟩ := vec_ok .definition s
    by_cases hd : ds = []
    · subst hd; exact ⟨r, hs⟩
    · obtain ⟨w, rfl⟩ := chain_suffix .definition ((vec_iff .definition).1 hs).1
      exact absurd (hn w r ds rfl (C79_alone .definition hs hd)) hd

example : ∀ p q ds, c!" enum {}; A includes B;" = p ++ q → weedleParse p = .ok ds → ds = [] := (C79_none _).1 ⟨_, rfl⟩

/-- Then nothing is consumed, not even white space. -/
theorem C79_nothing (s r : Str) (hs : G.definitions.parse s = .ok r []) : r = s := by
  have h := ((vec_iff .definition).1 hs).1
  cases h
  rfl

example : G.definitions.parse c!" enum {};" = .ok c!" enum {};" [] := rfl

/-- The definitions in front of an error do not depend on what is behind it. -/
theorem C79_behind (w r r' : Str) (ds : List Definition) (hd : ds ≠ []) (hs : G.definitions.parse (w ++ r) = .ok r ds) :
    ∃ r1 ds', G.definitions.parse (w ++ r') = .ok r1 (ds ++ ds') := by
  obtain ⟨r1, ds1, h1⟩ := vec_ok .definition (w ++ r')
  obtain ⟨_, ds', -, -, rfl⟩ := (C79_extend .definition (C79_alone .definition hs hd) hd _ _ _).1 h1
  exact ⟨r1, ds', h1⟩

example (r' : Str) : ∃ r1 ds', G.definitions.parse (c!"A includes B; " ++ r') = .ok r1 (.includesStatement none c!"A" c!"B" :: ds') :=
  C79_behind c!"A includes B; " c!"enum {};" r' [_] nofun rfl

end Verif.Properties
