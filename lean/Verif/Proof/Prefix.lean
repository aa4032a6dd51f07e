import Verif.Proof.Append
import Verif.Proof.Lexing

/-! # What follows a semicolon does not matter -/

namespace Verif
open Nom Spec

/-- Whatever follows the semicolon at the end of something spelled can be replaced. -/
theorem spells_replace {α : Type} {L : α → Lang} (hs : ∀ a, Semi (L a)) {a : α} {p r t' r' : Str}
    (h : Spells L a (p ++ r) r) (ht : Trivia t') : Spells L a (p ++ (t' ++ r')) r' := by
  obtain ⟨t, ls, b, h1, h2, h3, h4⟩ := h
  obtain ⟨b', rfl, h5⟩ := textThen_text h4
  rw [← List.append_assoc] at h1
  obtain rfl := List.append_cancel_right h1
  obtain ⟨x, rfl⟩ := hs a ls h3
  have := (text_append h5 ht (.nil : TextThen r' [] r')).2
  rw [List.append_nil] at this
  exact ⟨t, _, _, by simp, h2, h3, this⟩

theorem replace_rest {α : Type} {L : α → Lang} {f : Str → Res Char α} (hs : ∀ a, Semi (L a))
    (hi : ∀ {s r a}, f s = .ok r a ↔ Spells L a s r ∧ strip r = r) {p r r' : Str} {a : α} (h : f (p ++ r) = .ok r a) :
    ∃ e, Skips r' e ∧ f (p ++ r') = .ok e a := by
  obtain ⟨t', h1, h2, h3⟩ := skips_strip r'
  refine ⟨strip r', ⟨t', h1, h2, h3⟩, hi.2 ⟨?_, strip_of_noTrivia h3⟩⟩
  have := spells_replace (r' := strip r') hs (hi.1 h).1 h2
  rwa [← h1] at this

theorem separate_semi (e : Str) : Separate c!";" e := by
  constructor
  · intro c d h _ h'
    simp at h
    subst h
    have : ¬ NameChar ';' := by unfold NameChar; decide
    exact absurd h' this
  · intro h
    exfalso
    obtain ⟨c, v, h1, h2⟩ := Number.first h
    cases h1
    revert h2
    decide

theorem separate_congr {w e e' : Str} (h : Separate w e) (he : e'.head? = e.head?) : Separate w e' :=
  ⟨fun c d h1 h2 => h.1 c d h1 (he ▸ h2), fun hn c hc => h.2 hn c (he ▸ hc)⟩

theorem items_ne_nil {ls : List Str} {b : Str} (h : Items ls b) (hl : ls ≠ []) :
    b ≠ [] ∧ ∀ q, strip (b ++ q) = b ++ q := by
  cases h with
  | nil => exact absurd rfl hl
  | @cons w ws t s hw ht hs ha =>
    refine ⟨?_, fun q => ?_⟩
    · have := item_ne_nil hw
      simp [this]
    · rw [List.append_assoc]
      exact lexeme_strip (item_iff.1 hw)

/-- The items of a text that ends with a semicolon are the first items of every continuation. -/
theorem items_prefix {a L : List Str} {b q : Str} (h : Items (a ++ [c!";"]) b) (h' : Items L (b ++ q)) :
    ∃ l2, L = a ++ [c!";"] ++ l2 ∧ Lexes q l2 := by
  induction a generalizing b L with
  | nil =>
    cases h with
    | @cons _ _ t s hw ht hs ha =>
      cases hs
      generalize hb : c!";" ++ (t ++ []) ++ q = b' at h'
      cases h' with
      | nil => simp at hb
      | @cons w' ws' t' s' hw' ht' hs' ha' =>
        rw [List.append_assoc] at hb
        obtain rfl := item_unique hw hw' (separate_semi _) ha' hb
        have h1 := List.append_cancel_left hb
        have h2 := congrArg strip h1
        rw [List.append_nil, strip_trivia ht, strip_trivia ht', items_strip hs'] at h2
        obtain ⟨t2, h3, h4, -⟩ := skips_strip q
        exact ⟨ws', rfl, t2, s', by rw [← h2]; exact h3, h4, hs'⟩
  | cons w a ih =>
    cases h with
    | @cons _ _ t s hw ht hs ha =>
      generalize hb : w ++ (t ++ s) ++ q = b' at h'
      obtain ⟨hne, hst⟩ := items_ne_nil hs (by simp)
      cases h' with
      | nil =>
        have := item_ne_nil hw
        simp_all
      | @cons w' ws' t' s' hw' ht' hs' ha' =>
        rw [List.append_assoc] at hb
        have hsep : Separate w ((t ++ s) ++ q) := separate_congr ha (by
          cases t <;> cases s <;> simp_all)
        obtain rfl := item_unique hw hw' hsep ha' hb
        have h1 := List.append_cancel_left hb
        have h2 := congrArg strip h1
        rw [List.append_assoc, strip_trivia ht, strip_trivia ht', items_strip hs', hst] at h2
        subst h2
        obtain ⟨l2, rfl, h4⟩ := ih hs hs'
        exact ⟨l2, rfl, h4⟩

theorem spaced_append (a b : List Str) : spaced (a ++ b) = spaced a ++ spaced b := by
  induction a with
  | nil => rfl
  | cons w a ih => simp [spaced, ih]

theorem spaced_length (a : List Str) : a.length ≤ (spaced a).length := by
  induction a with
  | nil => simp
  | cons w a ih => simp [spaced]; omega

/-- Lexemes that begin with a definition begin with only one. -/
theorem definition_prefix {d d' : Definition} {a a' b b' : List Str} (h : definition d a) (h' : definition d' a')
    (he : a ++ b = a' ++ b') (hg : Good b) (hg' : Good b') : d = d' ∧ a = a' ∧ b = b' := by
  have key : ∀ {d : Definition} {a b : List Str}, definition d a → Good b →
      G.definition.parse (spaced (a ++ b)) = .ok (spaced b) d := by
    intro d a b h hg
    refine definition_iff.2 ⟨⟨[], a, _, rfl, .nil, h, ?_⟩, ?_⟩
    · obtain ⟨x, rfl⟩ := semi_definition d a h
      have := (text_append (text_spaced (x ++ [c!";"])) .nil (.nil : TextThen (spaced b) [] (spaced b))).2
      rw [List.append_nil] at this
      rw [spaced_append]
      exact this
    · cases b with
      | nil => rfl
      | cons w b => exact lexeme_strip hg.cons_lexeme
  have h1 := key h hg
  rw [he, key h' hg'] at h1
  injection h1 with h2 h3
  have h4 : (spaced a).length = (spaced a').length := by
    have := congrArg (fun l => (spaced l).length) he
    simp [spaced_append, h2] at this
    exact this
  have h5 : a = a' := by
    rcases List.append_eq_append_iff.1 he with ⟨c, rfl, -⟩ | ⟨c, rfl, -⟩
    · have := spaced_length c
      rw [spaced_append, List.length_append] at h4
      have : c = [] := List.length_eq_zero_iff.1 (by omega)
      simp [this]
    · have := spaced_length c
      rw [spaced_append, List.length_append] at h4
      have : c = [] := List.length_eq_zero_iff.1 (by omega)
      simp [this]
  subst h5
  exact ⟨h3.symm, rfl, List.append_cancel_left he⟩

theorem good_suffix {a b : List Str} (h : Good (a ++ b)) : Good b := by
  induction a with
  | nil => exact h
  | cons w a ih => exact ih h.2

/-- Lexemes of definitions that begin with the lexemes of definitions begin with these definitions. -/
theorem definitions_prefix {ds' ds : List Definition} {a b : List Str} (h' : definitions ds' a)
    (h : definitions ds (a ++ b)) : ∃ ds'', ds = ds' ++ ds'' ∧ definitions ds'' b := by
  induction ds' generalizing ds a with
  | nil =>
    cases h'
    exact ⟨ds, rfl, h⟩
  | cons d' ds' ih =>
    obtain ⟨a1, a2, rfl, h1, h2⟩ := h'
    have hg := allGood_definitions ds _ h
    cases ds with
    | nil =>
      have := (semi_definition d').ne_nil h1
      have h0 : a1 ++ a2 ++ b = [] := h
      simp_all
    | cons d ds =>
      obtain ⟨c1, c2, h3, h4, h5⟩ := h
      rw [List.append_assoc] at h3 hg
      obtain ⟨rfl, rfl, rfl⟩ := definition_prefix h1 h4 h3 (good_suffix hg) (good_suffix (h3 ▸ hg))
      obtain ⟨ds'', rfl, h6⟩ := ih h2 h5
      exact ⟨ds'', rfl, h6⟩

/-- Extending a text that holds definitions. -/
theorem document_extend {p q : Str} {ds ds' : List Definition} (hp : Document ds' p) (hd : ds' ≠ []) :
    Document ds (p ++ q) ↔ (Trivia q ∧ ds = ds') ∨ ∃ ds'', Document ds'' q ∧ ds = ds' ++ ds'' := by
  rcases document_lexes.1 hp with ⟨h, -⟩ | ⟨-, ls, ⟨t, b, rfl, ht, hb⟩, hl⟩
  · exact absurd h hd
  constructor
  · intro h
    rcases document_lexes.1 h with ⟨-, h⟩ | ⟨-, L, hL, hd'⟩
    · have := (items_ne_nil hb (definitions_ne_nil hd hl)).1
      simp_all
    · obtain ⟨x, rfl⟩ := semi_definitions hd ls hl
      obtain ⟨t', b', h1, h2, h3⟩ := hL
      have hb' : b' = b ++ q := by
        have := congrArg strip h1
        rw [List.append_assoc, strip_trivia ht, strip_trivia h2, items_strip h3,
          (items_ne_nil hb (by simp)).2] at this
        exact this.symm
      subst hb'
      obtain ⟨l2, rfl, h4⟩ := items_prefix hb h3
      obtain ⟨ds'', rfl, h5⟩ := definitions_prefix hl hd'
      by_cases hn : ds'' = []
      · subst hn
        cases h5
        obtain ⟨t2, b2, rfl, h6, h7⟩ := h4
        cases h7
        exact .inl ⟨by simpa using h6, by simp⟩
      · exact .inr ⟨ds'', document_lexes.2 (.inr ⟨hn, l2, h4, h5⟩), rfl⟩
  · rintro (⟨hq, rfl⟩ | ⟨ds'', h, rfl⟩)
    · obtain ⟨x, rfl⟩ := semi_definitions hd ls hl
      have := (text_append (items_text hb) hq (.nil : TextThen [] [] [])).2
      rw [List.append_nil, List.append_nil] at this
      exact .inr ⟨hd, t, _, b ++ q, by simp, ht, hl, textThen_nil.2 this⟩
    · obtain ⟨x, rfl⟩ := semi_definitions hd ls hl
      rcases h with ⟨rfl, rfl⟩ | ⟨hd', t2, l2, b2, rfl, h1, h2, h3⟩
      · simpa using hp
      · have := (text_append (items_text hb) h1 (textThen_nil.1 h3)).2
        exact .inr ⟨by simp [hd], t, _, _, by simp, ht, definitions_append hl h2, textThen_nil.2 this⟩

end Verif
