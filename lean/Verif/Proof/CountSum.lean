import Verif.Proof.CutAll
import Verif.Proof.CountBound
import Verif.Proof.CountCore

/-! # How many looks: one attempt, and the places one after the other -/

namespace Verif.Count
open Nom Spec Cut

variable {α β : Type}

theorem leaf_first {l : Leaf α} {w : Str} {v : α} (h : LeafText l w v) : ∃ c u, w = c :: u ∧ c ≠ '/' ∧ (c = '"' → (⟨_, l⟩ : (α : Type) × Leaf α) = ⟨Str, .string⟩) := by
  have num : Number w → ∃ c u, w = c :: u ∧ c ≠ '/' ∧ (c = '"' → (⟨_, l⟩ : (α : Type) × Leaf α) = ⟨Str, .string⟩) := fun hn => by
    obtain ⟨c, u, h1, h2⟩ := hn.first
    refine ⟨c, u, h1, ?_, fun e => (not_number (.inr (.inr e)) h2).elim⟩
    rintro rfl
    rcases h2 with h2 | h2 | h2
    · unfold IsDig at h2; revert h2; decide
    · cases h2
    · cases h2
  cases l with
  | punct p => obtain rfl := h; cases p <;> exact ⟨_, _, rfl, by decide, fun e => absurd e (by decide)⟩
  | kw k => obtain rfl := h; cases k <;> exact ⟨_, _, rfl, by decide, fun e => absurd e (by decide)⟩
  | ident =>
    obtain ⟨c, u, h1, h2, -⟩ := name_chars (i := v) (w := w) ⟨h.2, by simpa using h.1⟩
    refine ⟨c, u, h1, ?_, ?_⟩
    · rintro rfl; revert h2; decide
    · rintro rfl; exact absurd h2 (by decide)
  | dec => obtain ⟨rfl, h⟩ := h; exact num (.inl h)
  | hex => obtain ⟨rfl, h⟩ := h; exact num (.inr (.inl h))
  | oct => obtain ⟨rfl, h⟩ := h; exact num (.inr (.inr (.inl h)))
  | float => obtain ⟨rfl, h⟩ := h; exact num (.inr (.inr (.inr h)))
  | string => obtain ⟨rfl, -⟩ := h; exact ⟨_, _, rfl, by decide, fun _ => rfl⟩

open Classical in
/-- The place after the lexeme at a place. -/
noncomputable def next (t : Str) : Option Str := if h : ∃ r, Next t r then some h.choose else none

theorem next_eq {t r : Str} (h : Next t r) : next t = some r := by
  unfold next
  rw [dif_pos ⟨r, h⟩]
  exact congrArg some ((Exists.choose_spec (⟨r, h⟩ : ∃ r, Next t r)).unique h)

theorem next_of {t r : Str} (h : next t = some r) : Next t r := by
  unfold next at h
  split at h
  · next h' => obtain rfl := Option.some.inj h; exact h'.choose_spec
  · cases h

theorem next_none {t : Str} (h : ∀ r, ¬ Next t r) : next t = none := by
  unfold next
  rw [dif_neg fun ⟨r, h'⟩ => h r h']

/-- What is left at the next place. -/
noncomputable def rest (t : Str) : Nat := ((next t).map List.length).getD 0

/-- What is left at the place after the next one. -/
noncomputable def rest2 (t : Str) : Nat := ((next t).map rest).getD 0

theorem rest_some {t r : Str} (h : next t = some r) : rest t = r.length ∧ rest2 t = rest r := by
  simp [rest, rest2, h]

theorem rest_none {t : Str} (h : next t = none) : rest t = 0 ∧ rest2 t = 0 := by
  simp [rest, rest2, h]

theorem Next.read {t r : Str} (h : Next t r) : ∃ w e, strip t = w ++ e ∧ r = strip e ∧ ∃ c u, w = c :: u ∧ c ≠ '/' ∧
    (c = '"' → ∃ r v, charLeaf Str .string t = .ok r v) := by
  obtain ⟨α, l, v, -, h⟩ := h
  obtain ⟨w, e, h1, h2, -, rfl⟩ := charLeaf_ok_iff.1 h
  obtain ⟨c, u, h3, h4, h5⟩ := leaf_first h2
  refine ⟨w, e, h1, rfl, c, u, h3, h4, fun hc => ?_⟩
  cases h5 hc
  exact ⟨_, _, h⟩

theorem strip_le (s : Str) : (strip s).length ≤ s.length := (Verif.strip_suffix s).length_le

theorem next_lt {t r : Str} (h : Next t r) : r.length < (strip t).length := by
  obtain ⟨w, e, h1, rfl, c, u, rfl, -⟩ := Next.read h
  have := strip_le e
  rw [h1]
  simp
  omega

theorem rest_le (t : Str) : rest t ≤ (strip t).length := by
  cases h : next t with
  | none => simp [rest, h]
  | some r => rw [(rest_some h).1]; exact Nat.le_of_lt (next_lt (next_of h))

theorem rest2_le (t : Str) : rest2 t ≤ rest t := by
  cases h : next t with
  | none => simp [rest2, h]
  | some r =>
    rw [(rest_some h).1, (rest_some h).2]
    exact Nat.le_trans (rest_le r) (strip_le r)

theorem slash_le (t : Str) : slash (strip t) + 3 * rest t ≤ 3 * (strip t).length := by
  unfold slash
  split
  · next h =>
    have h1 : next t = none := next_none fun r hr => by
      obtain ⟨w, e, h1, rfl, c, u, rfl, h2, -⟩ := Next.read hr
      rw [h1] at h
      simp at h
      exact h2 h
    rw [(rest_none h1).1]
    omega
  · have := rest_le t
    omega

theorem core_ok {l : Leaf α} {t e : Str} {v : α} (h : (core l (strip t)).2 = .ok e v) : charLeaf α l t = .ok (strip e) v := by
  rw [charLeaf_eq, ← same_core, h]

theorem core_err {l : Leaf α} {t p : Str} {k : ErrorKind} (h : (core l (strip t)).2 = .err (.error p k)) : NoOk l t := fun r v => by
  rw [charLeaf_eq, ← same_core, h]; simp

theorem dec_ok {b u : Str} {d : Char} (h : unsigned b = d :: u) (hd : d ∈ c!"123456789") :
    ∃ v, (core .dec b).2 = .ok (u.dropWhile Char.isDigit) v := by
  obtain ⟨o, h1, -⟩ := opt_minus b
  rw [h] at h1
  have h2 : (oneOf c!"123456789" (d :: u)).2 = .ok u d := by simp only [oneOf, Nom.oneOf, hd, if_true]
  obtain ⟨-, h3⟩ := tw_cases Char.isDigit u
  simp only [core, recognize]
  rw [seq_snd_ok h1, seq_snd_ok h2, seq_snd_ok h3]
  exact ⟨_, rfl⟩

theorem oct_ok {b u : Str} (h : unsigned b = '0' :: u) : ∃ v, (core .oct b).2 = .ok (u.dropWhile isOctDigit) v := by
  obtain ⟨o, h1, -⟩ := opt_minus b
  rw [h] at h1
  have h2 : (char '0' ('0' :: u)).2 = .ok u '0' := by simp [char, Nom.char]
  obtain ⟨-, h3⟩ := tw_cases isOctDigit u
  simp only [core, recognize]
  rw [seq_snd_ok h1, seq_snd_ok h2, seq_snd_ok h3]
  exact ⟨_, rfl⟩

theorem dec_err {b u : Str} (h : unsigned b = '0' :: u) : ∃ p k, (core .dec b).2 = .err (.error p k) := by
  obtain ⟨o, h1, -⟩ := opt_minus b
  rw [h] at h1
  have h2 : (oneOf c!"123456789" ('0' :: u)).2 = .err (.error ('0' :: u) .oneOf) := by simp [oneOf, Nom.oneOf]
  simp only [core, recognize]
  rw [seq_snd_ok h1, seq_snd_err h2]
  exact ⟨_, _, rfl⟩

theorem hex_err {b u : Str} {d : Char} (h : unsigned b = '0' :: d :: u) (hd : d.isDigit = true) : ∃ p k, (core .hex b).2 = .err (.error p k) := by
  obtain ⟨o, h1, -⟩ := opt_minus b
  rw [h] at h1
  have h2 : (char '0' ('0' :: d :: u)).2 = .ok (d :: u) '0' := by simp [char, Nom.char]
  rcases alt_char_cases 'x' 'X' (d :: u) with ⟨r, x, h3, h4, -⟩ | ⟨p, k, h3, -⟩
  · simp at h3
    obtain ⟨rfl, -⟩ := h3
    rcases h4 with rfl | rfl <;> exact absurd hd (by decide)
  · simp only [core, recognize]
    rw [seq_snd_ok h1, seq_snd_ok h2, seq_snd_err h3]
    exact ⟨_, _, rfl⟩

theorem digit_nonzero {d : Char} (h : d.isDigit = true) (h0 : d ≠ '0') : d ∈ c!"123456789" := by
  have h1 := isDigit_iff d |>.1 h
  simp only [Char.le_def, UInt32.le_iff_toNat_le] at h1
  have h2 : d = Char.ofNat d.val.toNat := (Char.ofNat_toNat d).symm
  have h3 : 48 ≤ d.val.toNat ∧ d.val.toNat ≤ 57 := h1
  generalize d.val.toNat = n at h2 h3
  subst h2
  have : n = 48 ∨ n = 49 ∨ n = 50 ∨ n = 51 ∨ n = 52 ∨ n = 53 ∨ n = 54 ∨ n = 55 ∨ n = 56 ∨ n = 57 := by omega
  rcases this with rfl | rfl | rfl | rfl | rfl | rfl | rfl | rfl | rfl | rfl <;> revert h0 <;> decide

theorem strip_digit {d : Char} (u : Str) (h : d.isDigit = true) : strip (d :: u) = d :: u := by
  apply triviaStart
  intro c hc h'
  simp at h'
  subst h'
  simp at hc
  rcases hc with rfl | rfl | rfl | rfl | rfl <;> revert h <;> decide

/-- The digits at a place that are not in a floating point number are in the next integer, or in the two next ones. -/
theorem nonzero_digits {t u : Str} {d : Char} (hf : NoOk .float t) (h : unsigned (strip t) = d :: u) (hd : d ∈ c!"123456789") (hd' : d.isDigit = true) :
    digits (unsigned (strip t)) + rest t ≤ t.length := by
  obtain ⟨v, h1⟩ := dec_ok h hd
  have h2 : Next t _ := ⟨_, .dec, v, ⟨1, ⟨fun _ => hf, by omega, by omega⟩, Nat.le_refl 1⟩, core_ok h1⟩
  rw [(rest_some (next_eq h2)).1]
  have h3 := strip_le (u.dropWhile Char.isDigit)
  have h4 := digits_add (unsigned (strip t))
  have h5 := (opt_minus (strip t)).choose_spec.2.2
  have h6 := strip_le t
  rw [h] at h4 h5 ⊢
  rw [List.dropWhile_cons_of_pos hd'] at h4
  omega

theorem float_digits {t : Str} (hf : ¬ NoOk .float t) : digits (unsigned (strip t)) + rest t ≤ t.length := by
  rcases float_cost (strip t) with ⟨r, v, h1, h2, -⟩ | ⟨q, e, h1, -⟩
  · have h3 : Next t _ := ⟨_, .float, v, ⟨0, known_zero _, trivial⟩, core_ok h1⟩
    rw [(rest_some (next_eq h3)).1]
    have h4 := strip_le r
    have h6 := strip_le t
    omega
  · exact (hf (core_err h1)).elim

theorem oct_split (u : Str) : digits u ≤ digits (u.dropWhile isOctDigit) + (u.length - (u.dropWhile isOctDigit).length) ∧
    (u.dropWhile isOctDigit).length ≤ u.length := by
  induction u with
  | nil => simp [digits]
  | cons c u ih =>
    by_cases h : isOctDigit c = true
    · rw [List.dropWhile_cons_of_pos h]
      have : digits (c :: u) ≤ digits u + 1 := by unfold digits; rw [List.takeWhile_cons]; split <;> simp
      simp only [List.length_cons]
      omega
    · rw [List.dropWhile_cons_of_neg h]
      simp

theorem oct_next (u : Str) {d : Char} {r : Str} (h : u.dropWhile isOctDigit = d :: r) : isOctDigit d = false := by
  have := List.head?_dropWhile_not isOctDigit u
  rw [h] at this
  simpa using this

theorem fail_digits {t : Str} (hf : NoOk .float t) : digits (unsigned (strip t)) + rest2 t ≤ t.length + 1 := by
  have h0 := rest2_le t
  have h00 := rest_le t
  have h01 := strip_le t
  have h02 := (opt_minus (strip t)).choose_spec.2.2
  cases hb : unsigned (strip t) with
  | nil => simp [digits]; omega
  | cons d u =>
    by_cases hd : d.isDigit = true
    · by_cases hz : d = '0'
      · subst hz
        cases u with
        | nil => simp [digits]; omega
        | cons c u =>
          by_cases hc : c.isDigit = true
          · obtain ⟨v, h1⟩ := oct_ok hb
            obtain ⟨_, _, h2⟩ := dec_err hb
            obtain ⟨_, _, h3⟩ := hex_err hb hc
            have h4 : Next t _ := ⟨_, .oct, v, ⟨3, ⟨fun _ => hf, fun _ => core_err h2, fun _ => core_err h3⟩, Nat.le_refl 3⟩, core_ok h1⟩
            obtain ⟨h5, h6⟩ := rest_some (next_eq h4)
            rw [h6]
            obtain ⟨h7, h8⟩ := oct_split (c :: u)
            have h9 : digits ('0' :: c :: u) = digits (c :: u) + 1 := by simp [digits, List.takeWhile_cons]
            rw [h9]
            rw [hb] at h02
            simp only [List.length_cons] at h02 h7 h8
            generalize he : (c :: u).dropWhile isOctDigit = e at *
            cases e with
            | nil =>
              have h10 := rest_le (strip [])
              have h11 := strip_le (strip [])
              have h12 := strip_le []
              have h13 : digits [] = 0 := rfl
              simp only [List.length_nil] at h7 h12
              omega
            | cons x e =>
              by_cases hx : x.isDigit = true
              · have hx' := strip_digit e hx
                rw [hx'] at h5 h6 ⊢
                have h10 : unsigned (strip (x :: e)) = x :: e := by
                  rw [hx']
                  unfold unsigned
                  split
                  · next h => simp at h; rw [h.1] at hx; exact absurd hx (by decide)
                  · rfl
                have h11 : digits (unsigned (strip (x :: e))) + rest (x :: e) ≤ (x :: e).length := by
                  by_cases hff : NoOk .float (x :: e)
                  · refine nonzero_digits hff h10 (digit_nonzero hx ?_) hx
                    rintro rfl
                    have := oct_next _ he
                    revert this; decide
                  · exact float_digits hff
                rw [h10] at h11
                simp only [List.length_cons] at *
                omega
              · have h10 : digits (x :: e) = 0 := by simp [digits, List.takeWhile_cons, hx]
                have := rest_le (strip (x :: e))
                have := strip_le (strip (x :: e))
                have := strip_le (x :: e)
                simp only [List.length_cons] at *
                omega
          · have h1 : digits ('0' :: c :: u) = 1 := by simp [digits, List.takeWhile_cons, hc]
            rw [h1]; omega
      · have := nonzero_digits hf hb (digit_nonzero hd hz) hd
        rw [hb] at this
        omega
    · have h1 : digits (d :: u) = 0 := by simp [digits, List.takeWhile_cons, hd]
      rw [h1]; omega

theorem quote_le {t : Str} (h : NoOk .string t) : quote (strip t) + rest2 t ≤ t.length := by
  have h0 := rest2_le t
  have h00 := rest_le t
  have h01 := strip_le t
  unfold quote
  split
  · next hq =>
    have h1 : next t = none := next_none fun r hr => by
      obtain ⟨w, e, h1, rfl, c, u, rfl, -, h2⟩ := Next.read hr
      rw [h1] at hq
      simp at hq
      obtain ⟨r, v, h2⟩ := h2 hq
      exact h r v h2
    rw [(rest_none h1).2]
    omega
  · omega

/-- What an attempt costs. -/
theorem attempt_cost {l : Leaf α} {t : Str} (hl : Due l t) : (leaf α l t).1 + 11 * rest2 t ≤ 11 * t.length + 32 := by
  have h0 := rest2_le t
  have h00 := rest_le t
  have h01 := strip_le t
  have h02 := sp_cost t
  have h03 := slash_le t
  rw [leaf_fst]
  rcases core_cost l (strip t) with ⟨e, v, h1, h2, h3⟩ | ⟨q, k, h1, h2⟩
  · have h4 : Next t _ := ⟨_, l, v, hl, core_ok h1⟩
    obtain ⟨h5, h6⟩ := rest_some (next_eq h4)
    have h7 := sp_cost e
    have h8 := slash_le (strip e)
    have h9 := strip_le e
    rw [strip_strip] at h8
    rw [← same_core, h1]
    simp only
    omega
  · have hn : NoOk l t := core_err h1
    rw [← same_core, h1]
    simp only
    have h3 : (core l (strip t)).1 + 3 * rest2 t ≤ 3 * t.length + 21 := by
      cases l with
      | punct p => rcases punct_cost p (strip t) with ⟨_, _, h5, -⟩ | ⟨_, _, -, h5⟩ <;> first | (rw [h1] at h5; cases h5; done) | omega
      | kw p => rcases kw_cost p (strip t) with ⟨_, _, h5, -⟩ | ⟨_, _, -, h5⟩ <;> first | (rw [h1] at h5; cases h5; done) | omega
      | ident => rcases ident_cost (strip t) with ⟨_, _, h5, -⟩ | ⟨_, _, -, h5⟩ <;> first | (rw [h1] at h5; cases h5; done) | omega
      | dec => rcases dec_cost (strip t) with ⟨_, _, h5, -⟩ | ⟨_, _, -, h5⟩ <;> first | (rw [h1] at h5; cases h5; done) | omega
      | hex => rcases hex_cost (strip t) with ⟨_, _, h5, -⟩ | ⟨_, _, -, h5⟩ <;> first | (rw [h1] at h5; cases h5; done) | omega
      | oct => rcases oct_cost (strip t) with ⟨_, _, h5, -⟩ | ⟨_, _, -, h5⟩ <;> first | (rw [h1] at h5; cases h5; done) | omega
      | float =>
        have h4 := fail_digits hn
        rcases float_cost (strip t) with ⟨_, _, h5, -⟩ | ⟨_, _, -, h5⟩ <;> first | (rw [h1] at h5; cases h5; done) | omega
      | string =>
        have h4 := quote_le hn
        rcases string_cost (strip t) with ⟨_, _, h5, -⟩ | ⟨_, _, -, h5⟩ <;> first | (rw [h1] at h5; cases h5; done) | omega
    omega

/-- The places of a text, one after the other. -/
noncomputable def chain : Nat → Str → List Str
  | 0, _ => []
  | n + 1, t => t :: ((next t).map (chain n)).getD []

theorem chain_reach {s t : Str} (h : Reach s t) {n : Nat} (hn : s.length < n) : t ∈ chain n s := by
  have key : ∀ {s r t : Str}, Next r t → ∀ n, s.length < n → r ∈ chain n s → t ∈ chain n s := by
    intro s r t h n
    induction n generalizing s with
    | zero => intro hn; omega
    | succ n ih =>
      intro hn hr
      simp only [chain, List.mem_cons] at hr ⊢
      refine .inr ?_
      rcases hr with rfl | hr
      · rw [next_eq h]
        cases n with
        | zero => have := next_lt h; have := strip_le r; omega
        | succ n => simp [chain]
      · cases hs : next s with
        | none => rw [hs] at hr; simp at hr
        | some s' =>
          rw [hs] at hr
          have := next_lt (next_of hs)
          have := strip_le s
          exact ih (by omega) hr
  induction h with
  | refl =>
    cases n with
    | zero => omega
    | succ n => simp [chain]
  | step h1 h2 ih => exact key h2 n hn ih

theorem chain_sum (n : Nat) (s : Str) : ((chain n s).map fun t => 11 * (t.length - rest2 t) + 32).sum ≤ 11 * (s.length + rest s) + 32 * (s.length + 1) := by
  induction n generalizing s with
  | zero => simp [chain]
  | succ n ih =>
    simp only [chain, List.map_cons, List.sum_cons]
    cases h : next s with
    | none =>
      rw [(rest_none h).1, (rest_none h).2]
      simp
      omega
    | some r =>
      have h1 := ih r
      have h2 := next_lt (next_of h)
      have h3 := strip_le s
      have h4 := rest2_le s
      have h5 := rest_some h
      have h6 := rest_le s
      simp only [Option.map_some, Option.getD_some]
      omega

theorem reach_suffix {s t : Str} (h : Reach s t) : t <:+ s := by
  induction h with
  | refl => exact List.suffix_refl _
  | @step r _ h1 h2 ih =>
    obtain ⟨α, l, v, -, h2⟩ := h2
    have h3 := charLeaf_fine α l r
    rw [h2] at h3
    exact h3.1.trans ih

/-- The looks of a parser that visits each place at most `K` times. -/
theorem looks_le {g : G α} [Cut.Tidy g] {s : Str} {L : List (Attempt Char)} {x : Res Char α} (h : Traced charLeaf g s L x) {K : Nat}
    (hK : ∀ m n, Weighed charLeaf (visit m) g s n x → n ≤ K) :
    (L.map fun a => (leaf _ a.leaf a.place).1).sum ≤ 54 * K * (s.length + 1) := by
  obtain ⟨h1, -⟩ := tidy h
  have h2 : (L.map fun a => (leaf _ a.leaf a.place).1).sum ≤ ((L.map Attempt.place).map fun t => 11 * (t.length - rest2 t) + 32).sum := by
    clear h hK
    induction L with
    | nil => simp
    | cons a L ih =>
      have h3 := ih fun b hb => h1 b (List.mem_cons_of_mem _ hb)
      have h4 := attempt_cost (h1 a (by simp)).2
      have h5 := rest2_le a.place
      have h6 := rest_le a.place
      have h7 := strip_le a.place
      simp only [List.map_cons, List.sum_cons]
      omega
  have h3 : ∀ t ∈ L.map Attempt.place, Reach s t := fun t ht => by
    obtain ⟨a, ha, rfl⟩ := List.mem_map.1 ht
    exact (h1 a ha).1
  have h4 := Visits.sum_places (fun t => 11 * (t.length - rest2 t) + 32) (chain (s.length + 1) s) (K := K) (L.map Attempt.place)
    (fun t ht => chain_reach (h3 t ht) (Nat.lt_succ_self _)) fun t _ => by
      by_cases ht : t ∈ L.map Attempt.place
      · rw [Visits.count_visit s _ (fun u hu => reach_suffix (h3 u hu)) (reach_suffix (h3 t ht)), List.map_map]
        exact hK _ _ (h.weighed (visit t.length))
      · rw [List.count_eq_zero_of_not_mem ht]; exact Nat.zero_le _
  have h5 := chain_sum (s.length + 1) s
  have h6 := rest_le s
  have h7 := strip_le s
  have h8 := Nat.mul_le_mul_left K (Nat.le_trans h5 (show _ ≤ 54 * (s.length + 1) by omega))
  rw [Nat.mul_comm 54 K, Nat.mul_assoc]
  omega

theorem chain_shape (n : Nat) (s : Str) : (chain n s).Pairwise fun t u => u.length < t.length ∧ u <:+ t := by
  have key : ∀ n s, ∀ t ∈ chain n s, t <:+ s := fun n => by
    induction n with
    | zero => simp [chain]
    | succ n ih =>
      intro s t ht
      simp only [chain, List.mem_cons] at ht
      rcases ht with rfl | ht
      · exact List.suffix_refl _
      · cases hs : next s with
        | none => rw [hs] at ht; simp at ht
        | some r =>
          rw [hs] at ht
          exact (ih r t ht).trans (reach_suffix (.step .refl (next_of hs)))
  induction n generalizing s with
  | zero => simp [chain]
  | succ n ih =>
    simp only [chain, List.pairwise_cons]
    cases hs : next s with
    | none => simp
    | some r =>
      refine ⟨fun t ht => ?_, ih r⟩
      have h1 := key n r t ht
      have h2 := next_lt (next_of hs)
      have h3 := strip_le s
      have h4 := h1.length_le
      exact ⟨by omega, h1.trans (reach_suffix (.step .refl (next_of hs)))⟩

theorem chain_next {n : Nat} {s t r : Str} (hn : s.length < n) (ht : t ∈ chain n s) (h : Next t r) :
    ∃ k, (chain n s)[k]? = some t ∧ (chain n s)[k + 1]? = some r := by
  induction n generalizing s with
  | zero => omega
  | succ n ih =>
    simp only [chain, List.mem_cons] at ht
    rcases ht with rfl | ht
    · refine ⟨0, rfl, ?_⟩
      have := next_lt h
      have := strip_le t
      simp only [chain, next_eq h, Option.map_some, Option.getD_some, List.getElem?_cons_succ]
      cases n with
      | zero => omega
      | succ n => rfl
    · cases hs : next s with
      | none => rw [hs] at ht; simp at ht
      | some u =>
        rw [hs] at ht
        have := next_lt (next_of hs)
        have := strip_le s
        obtain ⟨k, h1, h2⟩ := ih (s := u) (by omega) ht
        refine ⟨k + 1, ?_, ?_⟩
        · simpa only [chain, hs, Option.map_some, Option.getD_some, List.getElem?_cons_succ] using h1
        · simpa only [chain, hs, Option.map_some, Option.getD_some, List.getElem?_cons_succ] using h2

/-- The places where terminals are tried, and where they end. -/
theorem cuts {g : G α} [Cut.Tidy g] {s : Str} {L : List (Attempt Char)} {x : Res Char α} (h : Traced charLeaf g s L x) :
    ∃ T : List Str, T.head? = some s ∧ (T.Pairwise fun t u => u.length < t.length ∧ u <:+ t) ∧
      ∀ a ∈ L, a.place ∈ T ∧ ∀ r v, charLeaf _ a.leaf a.place = .ok r v → ∃ k, T[k]? = some a.place ∧ T[k + 1]? = some r := by
  obtain ⟨h1, -⟩ := tidy h
  refine ⟨chain (s.length + 1) s, rfl, chain_shape _ _, fun a ha => ?_⟩
  have h2 := chain_reach (h1 a ha).1 (Nat.lt_succ_self _)
  exact ⟨h2, fun r v e => chain_next (Nat.lt_succ_self _) h2 ⟨_, _, v, (h1 a ha).2, e⟩⟩

end Verif.Count
