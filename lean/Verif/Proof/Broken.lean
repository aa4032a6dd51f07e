import Verif.Properties.Longest
import Verif.Proof.Definitions
import Verif.Proof.Prefix

/-! # Lists of things that end with a semicolon, in front of any text -/

namespace Verif
open Nom Spec Properties Longest

variable {α : Type} {g : G α} {L : α → Lang}

theorem whole_suff (h : WholeOf g L) : Suff g.parse := suff_of_fine (G.parse_fine (whole_guarded h))

theorem vec_iff (h : WholeOf g L) {s r : Str} {as : List α} :
    (G.many0 g).parse s = .ok r as ↔ Chain g.parse s as r ∧ Fails g.parse r :=
  many0_ok_iff (whole_suff h)

theorem whole_progress (h : WholeOf g L) {s r : Str} {a : α} (e : g.parse s = .ok r a) : r ≠ s := by
  rintro rfl
  exact ok_progress exact_char (whole_guarded h) e rfl

theorem whole_strip (h : WholeOf g L) {s r : Str} {a : α} (e : g.parse s = .ok r a) : g.parse (strip s) = .ok r a := by
  obtain ⟨ls, h1, h2⟩ := h.whole.snd s r a e
  refine h.whole.ok a (Reads.rl ?_ h2)
  cases h1 with
  | nil => exact absurd rfl ((h.whole.semi a).ne_nil h2)
  | cons hs ht =>
    refine .cons ?_ ht
    obtain ⟨e, h1, h2, h3⟩ := hs
    exact ⟨e, by rw [strip_strip]; exact h1, h2, h3⟩

theorem whole_replace (h : WholeOf g L) {p r : Str} (r' : Str) {a : α} (e : g.parse (p ++ r) = .ok r a) :
    g.parse (p ++ r') = .ok (strip r') a := by
  obtain ⟨e, h1, h2⟩ := replace_rest (r' := r') (fun a => h.whole.semi a) h.whole.iff e
  have : e = strip r' := by
    obtain ⟨t, rfl, ht, hn⟩ := h1
    rw [strip_trivia ht, strip_of_noTrivia hn]
  rw [← this]
  exact h2

theorem chain_strip (h : WholeOf g L) {s r : Str} {as : List α} (hc : Chain g.parse s as r) (ha : as ≠ []) :
    Chain g.parse (strip s) as r := by
  cases hc with
  | nil => exact absurd rfl ha
  | cons h1 h2 h3 => exact .cons (whole_strip h h1) (whole_progress h (whole_strip h h1)) h3

theorem chain_suffix (h : WholeOf g L) {s r : Str} {as : List α} (hc : Chain g.parse s as r) : r <:+ s := by
  induction hc with
  | nil => exact List.suffix_refl _
  | cons h1 _ _ ih => exact ih.trans (whole_suff h _ _ _ h1)

/-- What is read does not depend on what follows. -/
theorem chain_replace (h : WholeOf g L) {s r : Str} {as : List α} (hc : Chain g.parse s as r) :
    ∀ w, s = w ++ r → as ≠ [] → ∀ r', Chain g.parse (w ++ r') as (strip r') := by
  induction hc with
  | nil => exact fun _ _ ha => absurd rfl ha
  | @cons s m r a as h1 h2 h3 ih =>
    rintro w rfl - r'
    by_cases ha : as = []
    · subst ha
      cases h3
      have := whole_replace h r' h1
      exact .cons this (whole_progress h this) .nil
    · obtain ⟨u, hu⟩ : m <:+ w ++ r := whole_suff h _ _ _ h1
      obtain ⟨v, hv⟩ : r <:+ m := chain_suffix h h3
      subst hv
      obtain rfl : w = u ++ v := by
        rw [← List.append_assoc] at hu
        exact (List.append_cancel_right hu).symm
      rw [List.append_assoc] at h1 ⊢
      have := whole_replace h (v ++ r') h1
      exact .cons this (whole_progress h this) (chain_strip h (ih v rfl ha r') ha)

theorem Chain.trans {f : P Char α} {s m r : Str} {as bs : List α} (h : Chain f s as m) (h' : Chain f m bs r) :
    Chain f s (as ++ bs) r := by
  induction h with
  | nil => exact h'
  | cons h1 h2 _ ih => exact .cons h1 h2 (ih h')

theorem fails_nil (h : WholeOf g L) : Fails g.parse [] := by
  rcases total (whole_guarded h) [] with ⟨r', a', h1, h2⟩ | h1
  · obtain rfl : r' = [] := List.eq_nil_of_length_eq_zero (by simpa using h2)
    exact absurd rfl (whole_progress h h1)
  · exact h1

end Verif
