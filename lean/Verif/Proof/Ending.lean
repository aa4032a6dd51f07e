import Verif.Proof.Document
import Verif.Spec.Types

/-!
# Parts of documents, parsed by themselves
-/

namespace Verif
open Nom Spec

theorem ended_strip {r : Str} (h : Ended r) : strip r = r := by
  apply triviaStart
  rcases h with rfl | ⟨c, e, rfl, h⟩
  · simp
  · intro c' hc' h'
    cases h'
    revert h hc'
    simp only [List.mem_cons, List.not_mem_nil, or_false]
    rintro h (rfl | rfl | rfl | rfl | rfl) <;> revert h <;> decide

theorem ended_stop {r : Str} (h : Ended r) : StopAt CStep r := by
  have hs := ended_strip h
  rcases h with rfl | ⟨c, e, rfl, h⟩
  · exact .inl rfl
  · refine .inr ⟨[c], strip e, ?_, e, by rw [hs]; rfl, fun hw => ?_, rfl⟩
    · simp only [List.mem_cons, List.not_mem_nil, or_false] at h
      rcases h with rfl | rfl | rfl | rfl | rfl | rfl <;> decide
    · exfalso
      simp only [List.mem_cons, List.not_mem_nil, or_false] at h
      rcases h with rfl | rfl | rfl | rfl | rfl | rfl
      · exact punct_not_wordy (p := .semiColon) hw
      · exact punct_not_wordy (p := .comma) hw
      · exact punct_not_wordy (p := .closeParen) hw
      · exact punct_not_wordy (p := .closeBracket) hw
      · exact punct_not_wordy (p := .closeBrace) hw
      · exact punct_not_wordy (p := .greaterThan) hw

theorem textThen_reads_lexemes {ls : List Str} {b r : Str} (h : TextThen r ls b)
    (hg : ∀ w ∈ ls, Solid w ∨ Number w) (hr : strip r = r) :
    ∀ t, Trivia t → Reads CStep (strip (t ++ b)) ls r := by
  induction h with
  | nil =>
    intro t ht
    rw [strip_trivia ht, hr]
    exact .nil
  | @cons w ws t' s ht' hs ha ih =>
    intro t ht
    rw [strip_trivia ht]
    refine .cons (m := strip (t' ++ s)) ⟨t' ++ s, ?_, fun hw => apart_wordy hw ha, rfl⟩
      (ih (fun w hw => hg w (.tail _ hw)) t' ht')
    rw [strip_strip, lexeme_strip (hg w (.head _))]

theorem spelled_reads_lexemes {t b r : Str} {ls : List Str} (ht : Trivia t) (h : TextThen r ls b)
    (hl : ls ≠ []) (hg : ∀ w ∈ ls, Solid w ∨ Number w) (hr : strip r = r) : Reads CStep (t ++ b) ls r := by
  have := textThen_reads_lexemes h hg hr t ht
  generalize hs : strip (t ++ b) = s at this
  cases this with
  | nil => exact absurd rfl hl
  | cons h1 h2 =>
    obtain ⟨e, h1, h3, h4⟩ := h1
    exact .cons ⟨e, by rwa [← hs, strip_strip] at h1, h3, h4⟩ h2

theorem reads_text_stop {s r : Str} {ls : List Str} (h : Reads CStep s ls r) (hg : Good (ls ++ [c!";"]))
    (hr : StopAt CStep r) : (s = r ∧ ls = []) ∨ (strip r = r ∧ TextThen r ls (strip s)) := by
  induction h with
  | nil => exact .inl ⟨rfl, rfl⟩
  | @cons s m r w ls h t ih =>
    refine .inr ?_
    obtain ⟨e, h1, h2, rfl⟩ := h
    have ha : Apart w e := by
      rcases hg.1 with h | ⟨h, p, ls', h', hp⟩
      · exact solid_apart h h2
      · cases t with
        | nil => exact (stopAt_nameEnd hr).apart
        | cons t _ =>
          cases h'
          exact (stopAt_nameEnd (hp.at t)).apart
    obtain ⟨t, h3, h4, -⟩ := skips_strip e
    rw [h1, h3]
    rcases ih hg.2 hr with ⟨h5, rfl⟩ | ⟨h5, h6⟩
    · subst h5
      exact ⟨strip_strip _, .cons h4 .nil (h3 ▸ ha)⟩
    · refine ⟨h5, .cons h4 ?_ (h3 ▸ ha)⟩
      rwa [strip_strip] at h6

theorem Good.lexemes {ls : List Str} (h : Good ls) : ∀ w ∈ ls, Solid w ∨ Number w := by
  induction ls with
  | nil => simp
  | cons w ls ih =>
    simp only [List.mem_cons, forall_eq_or_imp]
    exact ⟨h.cons_lexeme, ih h.2⟩

/-- A part of a document, read by `g`, spelled by `L`. -/
structure Part {α : Type} (g : G α) (L : α → Lang) : Prop where
  snd : Snd charLeaf CStep (ntLim charLeaf) g L
  loose : ∀ a, Loose (L a)
  guarded : Guarded true g true
  ok : ∀ a {ls s r}, L a ls → Reads CStep s ls r → StopAt CStep r → Ok charLeaf g s r a

theorem Part.iff {α : Type} {g : G α} {L : α → Lang} (h : Part g L) {s r : Str} {a : α} (hr : Ended r) :
    g.parse s = .ok r a ↔ Spells L a s r := by
  have hn : ∀ ls, L a ls → ls ≠ [] := by
    rintro ls hl rfl
    exact ok_progress exact_char h.guarded (h.ok a (s := []) (r := []) hl .nil (.inl rfl)) rfl
  have hg : ∀ {ls}, L a ls → Good (ls ++ [c!";"]) := fun hl =>
    (h.loose a _ hl).1 _ (by simp [Stop]) [] trivial
  constructor
  · intro e
    obtain ⟨ls, h1, h2⟩ := h.snd s r a e
    rcases reads_text_stop h1 (hg h2) (ended_stop hr) with ⟨-, h'⟩ | ⟨-, h'⟩
    · exact absurd h' (hn ls h2)
    · obtain ⟨t, h3, h4, -⟩ := skips_strip s
      exact ⟨t, ls, strip s, h3, h4, h2, h'⟩
  · rintro ⟨t, ls, b, rfl, h1, h2, h3⟩
    exact h.ok a h2 (spelled_reads_lexemes h1 h3 (hn ls h2) (fun w hw =>
      (hg h2).lexemes w (List.mem_append_left _ hw)) (ended_strip hr)) (ended_stop hr)

/-- A part of a document that ends with a semicolon, read by `g`, spelled by `L`. -/
structure Whole {α : Type} (g : G α) (L : α → Lang) : Prop where
  snd : Snd charLeaf CStep (ntLim charLeaf) g L
  good : ∀ a, AllGood (L a)
  semi : ∀ a, Semi (L a)
  ok : ∀ a {s r}, RL CStep (L a) s r → Ok charLeaf g s r a

theorem Whole.iff {α : Type} {g : G α} {L : α → Lang} (h : Whole g L) {s r : Str} {a : α} :
    g.parse s = .ok r a ↔ Spells L a s r ∧ strip r = r := closed_iff h.snd h.good h.semi h.ok

/-! ## Single alternatives -/

/-- Every result has the property `p`. -/
def Yields {α : Type} (g : G α) (p : α → Prop) : Prop := ∀ s r a, Ok charLeaf g s r a → p a

theorem Snd.only {α : Type} {g : G α} {L : α → Lang} {p : α → Prop}
    (h : Snd charLeaf CStep (ntLim charLeaf) g L) (hp : Yields g p) :
    Snd charLeaf CStep (ntLim charLeaf) g (only p L) := fun s r a e => by
  obtain ⟨ls, h1, h2⟩ := h s r a e
  exact ⟨ls, h1, hp s r a e, h2⟩

theorem rl_only {α : Type} {L : α → Lang} {p : α → Prop} {a : α} {s r : Str} (h : RL CStep (only p L a) s r) :
    p a ∧ RL CStep (L a) s r := by
  obtain ⟨ls, ⟨h1, h2⟩, h3⟩ := h
  exact ⟨h1, ls, h2, h3⟩

theorem alts_nil {α : Type} {s r : Str} {a : α} (h : Ok charLeaf (G.alts []) s r a) : False := by
  cases (show (Nom.altEnd s : Res Char α) = .ok r a from h)

theorem alts_cons {α : Type} {g : G α} {gs : List (G α)} {s r : Str} {a : α}
    (h : Ok charLeaf (G.alts (g :: gs)) s r a) : Ok charLeaf g s r a ∨ Ok charLeaf (G.alts gs) s r a := by
  replace h : Nom.orElse (g.run charLeaf (ntLim charLeaf)) ((G.alts gs).run charLeaf (ntLim charLeaf)) s = .ok r a := h
  simp only [Nom.orElse] at h
  split at h
  · exact .inr h
  · exact .inl h

/-- Only the alternative with the right results can have been taken. -/
theorem pick {α κ : Type} {f : α → κ} : ∀ {gs : List (G α × κ)}, (∀ g ∈ gs, Yields g.1 (f · = g.2)) →
    ∀ {s r : Str} {a : α}, Ok charLeaf (G.alts (gs.map (·.1))) s r a →
    ∃ g ∈ gs, f a = g.2 ∧ Ok charLeaf g.1 s r a
  | [], _, _, _, _, h => (alts_nil h).elim
  | g :: gs, hy, s, r, a, h => by
    rcases alts_cons h with h | h
    · exact ⟨g, .head _, hy g (.head _) _ _ _ h, h⟩
    · obtain ⟨g', h1, h2⟩ := pick (fun g hg => hy g (.tail _ hg)) h
      exact ⟨g', .tail _ h1, h2⟩

/-- The same, for the alternative of kind `k`. -/
theorem pick_kind {α κ : Type} {f : α → κ} {gs : List (G α × κ)} {g : G α} {k : κ}
    (hy : ∀ g ∈ gs, Yields g.1 (f · = g.2)) (hu : ∀ g' ∈ gs, g'.2 = k → g'.1 = g) {s r : Str} {a : α}
    (h : Ok charLeaf (G.alts (gs.map (·.1))) s r a) (hk : f a = k) : Ok charLeaf g s r a := by
  obtain ⟨g', h1, h2, h3⟩ := pick hy h
  exact hu g' h1 (h2.symm.trans hk) ▸ h3

end Verif
