import Verif.Proof.Leaf

/-! # Shapes of number literals -/

namespace Verif
open Nom Spec

def IsDig (c : Char) : Prop := '0' ≤ c ∧ c ≤ '9'

instance (c : Char) : Decidable (IsDig c) := inferInstanceAs (Decidable (_ ∧ _))

/-- The characters of numbers. -/
def NumChar (c : Char) : Prop :=
  IsDig c ∨ ('A' ≤ c ∧ c ≤ 'F') ∨ ('a' ≤ c ∧ c ≤ 'f') ∨ c ∈ ['x', 'X', '.', '+', '-']

/-- A sign or nothing. -/
def Sign (g : Str) : Prop := g = [] ∨ g = ['-']

def NumEnd (e : Str) : Prop := ∀ c e', e = c :: e' → ¬ NumChar c

theorem sign_matches {g : Str} : (Regex.opt (Regex.chr '-')).Matches g ↔ Sign g := by
  rw [Regex.matches_opt, Regex.matches_chr, Sign, or_comm]

theorem dec_nf {w : Str} (h : Regex.dec.Matches w) : ∃ g d ds, w = g ++ d :: ds ∧ Sign g ∧
    ('1' ≤ d ∧ d ≤ '9') ∧ ∀ c ∈ ds, IsDig c := by
  obtain ⟨g, _, rfl, h1, h⟩ := Regex.matches_seq.1 h
  obtain ⟨_, ds, rfl, h2, h3⟩ := Regex.matches_seq.1 h
  obtain ⟨d, rfl, h2'⟩ := Regex.matches_cls.1 h2
  exact ⟨g, d, ds, rfl, sign_matches.1 h1, h2', Regex.matches_star_cls.1 h3⟩

theorem hex_nf {w : Str} (h : Regex.hex.Matches w) : ∃ g x ds, w = g ++ '0' :: x :: ds ∧ Sign g ∧
    (x = 'x' ∨ x = 'X') ∧ ∀ c ∈ ds, NumChar c := by
  obtain ⟨g, _, rfl, h1, h⟩ := Regex.matches_seq.1 h
  obtain ⟨_, _, rfl, h2, h⟩ := Regex.matches_seq.1 h
  obtain ⟨_, ds, rfl, h3, h4⟩ := Regex.matches_seq.1 h
  obtain rfl := Regex.matches_chr.1 h2
  refine ⟨g, ?_⟩
  have h5 : ∀ c ∈ ds, NumChar c := by
    intro c hc
    have := Regex.matches_star_cls.1 h4 c hc
    unfold NumChar IsDig
    grind
  rcases Regex.matches_alt.1 h3 with h3 | h3 <;> obtain rfl := Regex.matches_chr.1 h3
  · exact ⟨'X', ds, rfl, sign_matches.1 h1, .inr rfl, h5⟩
  · exact ⟨'x', ds, rfl, sign_matches.1 h1, .inl rfl, h5⟩

theorem oct_nf {w : Str} (h : Regex.oct.Matches w) : ∃ g ds, w = g ++ '0' :: ds ∧ Sign g ∧
    ∀ c ∈ ds, IsDig c := by
  obtain ⟨g, _, rfl, h1, h⟩ := Regex.matches_seq.1 h
  obtain ⟨_, ds, rfl, h2, h4⟩ := Regex.matches_seq.1 h
  obtain rfl := Regex.matches_chr.1 h2
  refine ⟨g, ds, rfl, sign_matches.1 h1, fun c hc => ?_⟩
  have := Regex.matches_star_cls.1 h4 c hc
  have h' : '7' ≤ '9' := by decide
  exact ⟨this.1, Char.le_trans this.2 h'⟩

theorem isDig_num {c : Char} (h : IsDig c) : NumChar c := .inl h

theorem exponent_nf {w : Str} (h : Regex.exponent.Matches w) : ∃ c v, w = c :: v ∧
    (c = 'e' ∨ c = 'E') ∧ ∀ x ∈ v, NumChar x := by
  obtain ⟨_, _, rfl, h1, h⟩ := Regex.matches_seq.1 h
  obtain ⟨g, ds, rfl, h2, h3⟩ := Regex.matches_seq.1 h
  have h3 : ∀ c ∈ ds, IsDig c := (Regex.matches_plus_cls.1 h3).2
  have hg : ∀ c ∈ g, NumChar c := by
    rcases Regex.matches_opt.1 h2 with h2 | rfl
    · rcases Regex.matches_alt.1 h2 with h2 | h2 <;> obtain rfl := Regex.matches_chr.1 h2 <;>
        simp [NumChar]
    · simp
  have hv : ∀ x ∈ g ++ ds, NumChar x := by
    intro x hx
    rcases List.mem_append.1 hx with hx | hx
    · exact hg x hx
    · exact .inl (h3 x hx)
  rcases Regex.matches_alt.1 h1 with h1 | h1 <;> obtain rfl := Regex.matches_chr.1 h1
  · exact ⟨'E', g ++ ds, rfl, .inr rfl, hv⟩
  · exact ⟨'e', g ++ ds, rfl, .inl rfl, hv⟩

theorem float_nf {w : Str} (h : Regex.float.Matches w) : ∃ g u c v, w = g ++ (u ++ c :: v) ∧
    Sign g ∧ (∀ x ∈ u, IsDig x) ∧ (c = '.' ∨ c = 'e' ∨ c = 'E') ∧ (∀ x ∈ v, NumChar x) ∧
    (u ≠ [] ∨ c = '.' ∧ ∃ d v', v = d :: v' ∧ IsDig d) := by
  obtain ⟨g, m, rfl, h1, h⟩ := Regex.matches_seq.1 h
  refine ⟨g, ?_⟩
  rcases Regex.matches_alt.1 h with h | h
  · obtain ⟨m, e, rfl, h2, h3⟩ := Regex.matches_seq.1 h
    obtain ⟨u, v, rfl, h4, h5, h6⟩ := mantissa_iff.1 h2
    refine ⟨u, '.', v ++ e, by simp, sign_matches.1 h1, h4, .inl rfl, ?_, ?_⟩
    · intro x hx
      rcases List.mem_append.1 hx with hx | hx
      · exact .inl (h5 x hx)
      · rcases Regex.matches_opt.1 h3 with h3 | rfl
        · obtain ⟨c, v', rfl, h7, h8⟩ := exponent_nf h3
          simp at hx
          rcases hx with rfl | hx
          · rcases h7 with rfl | rfl
            · exact .inr (.inr (.inl (by decide)))
            · exact .inr (.inl (by decide))
          · exact h8 x hx
        · simp at hx
    · rcases h6 with h6 | h6
      · exact .inl h6
      · cases v with
        | nil => exact absurd rfl h6
        | cons d v => exact .inr ⟨rfl, d, v ++ e, rfl, h5 d (by simp)⟩
  · obtain ⟨u, e, rfl, h2, h3⟩ := Regex.matches_seq.1 h
    obtain ⟨c, v', rfl, h7, h8⟩ := exponent_nf h3
    have h2 := Regex.matches_plus_cls.1 h2
    exact ⟨u, c, v', rfl, sign_matches.1 h1, h2.2, .inr h7, h8, .inl h2.1⟩

theorem Sign.num {g : Str} (h : Sign g) : ∀ c ∈ g, NumChar c := by
  rcases h with rfl | rfl
  · simp
  · simp [NumChar]

def Number (w : Str) : Prop :=
  Regex.dec.Matches w ∨ Regex.hex.Matches w ∨ Regex.oct.Matches w ∨ Regex.float.Matches w

theorem Number.chars {w : Str} (h : Number w) : ∀ c ∈ w, NumChar c := by
  rcases h with h | h | h | h
  · obtain ⟨g, d, ds, rfl, h1, h2, h3⟩ := dec_nf h
    intro c hc
    simp at hc
    rcases hc with hc | rfl | hc
    · exact h1.num c hc
    · exact .inl ⟨Char.le_trans (by decide) h2.1, h2.2⟩
    · exact .inl (h3 c hc)
  · obtain ⟨g, x, ds, rfl, h1, h2, h3⟩ := hex_nf h
    intro c hc
    simp at hc
    rcases hc with hc | rfl | rfl | hc
    · exact h1.num c hc
    · exact .inl (by decide)
    · rcases h2 with rfl | rfl <;> simp [NumChar]
    · exact h3 c hc
  · obtain ⟨g, ds, rfl, h1, h3⟩ := oct_nf h
    intro c hc
    simp at hc
    rcases hc with hc | rfl | hc
    · exact h1.num c hc
    · exact .inl (by decide)
    · exact .inl (h3 c hc)
  · obtain ⟨g, u, x, v, rfl, h1, h2, h3, h4, -⟩ := float_nf h
    intro c hc
    simp at hc
    rcases hc with hc | hc | rfl | hc
    · exact h1.num c hc
    · exact .inl (h2 c hc)
    · rcases h3 with rfl | rfl | rfl
      · simp [NumChar]
      · exact .inr (.inr (.inl (by decide)))
      · exact .inr (.inl (by decide))
    · exact h4 c hc

/-- A number begins with a digit or a dot and a digit, possibly after a sign. -/
theorem Number.head {w : Str} (h : Number w) : ∃ g c v, w = g ++ c :: v ∧ Sign g ∧
    (IsDig c ∨ c = '.' ∧ ∃ d v', v = d :: v' ∧ IsDig d) := by
  rcases h with h | h | h | h
  · obtain ⟨g, d, ds, rfl, h1, h2, h3⟩ := dec_nf h
    exact ⟨g, d, ds, rfl, h1, .inl ⟨Char.le_trans (by decide) h2.1, h2.2⟩⟩
  · obtain ⟨g, x, ds, rfl, h1, h2, h3⟩ := hex_nf h
    exact ⟨g, _, _, rfl, h1, .inl (by unfold IsDig; decide)⟩
  · obtain ⟨g, ds, rfl, h1, h3⟩ := oct_nf h
    exact ⟨g, _, _, rfl, h1, .inl (by unfold IsDig; decide)⟩
  · obtain ⟨g, u, x, v, rfl, h1, h2, h3, h4, h5⟩ := float_nf h
    cases u with
    | nil => rcases h5 with h5 | h5
             · exact absurd rfl h5
             · exact ⟨g, x, v, rfl, h1, .inr h5⟩
    | cons d u => exact ⟨g, d, u ++ x :: v, rfl, h1, .inl (h2 d (by simp))⟩

/-- A number in front of something that is not part of a number. -/
theorem Number.prefix {w w' e : Str} (h : Number w) (he : NumEnd e) (hp : w <+: w' ++ e) :
    w <+: w' := by
  have hc := h.chars
  clear h
  induction w generalizing w' with
  | nil => exact List.nil_prefix
  | cons c w ih =>
    cases w' with
    | nil =>
      cases e with
      | nil => simp at hp
      | cons d e =>
        simp at hp
        obtain ⟨rfl, hp⟩ := hp
        exact absurd (hc c (by simp)) (he c e rfl)
    | cons d w' =>
      simp at hp
      obtain ⟨rfl, hp⟩ := hp
      simp
      exact ih hp fun x hx => hc x (by simp [hx])

theorem Number.longest {re : Regex} (hre : ∀ w, re.Matches w → Number w) {w e : Str}
    (he : NumEnd e) : Longest re w e := fun w' hw hm =>
  ((hre w' hm).prefix he hw).length_le

theorem sign_inj {g g' : Str} {c c' : Char} {v v' : Str} (hg : Sign g) (hg' : Sign g')
    (hc : c ≠ '-') (hc' : c' ≠ '-') (h : g ++ c :: v = g' ++ c' :: v') :
    g = g' ∧ c = c' ∧ v = v' := by
  rcases hg with rfl | rfl <;> rcases hg' with rfl | rfl <;> simp at h <;> grind

theorem IsDig.not_minus {c : Char} (h : IsDig c) : c ≠ '-' := by
  rintro rfl; exact absurd h (by unfold IsDig; decide)

theorem digits_no_float {g ds w : Str} {c : Char} (hg : Sign g) (hd : ∀ x ∈ c :: ds, IsDig x)
    (hp : w <+: g ++ c :: ds) : ¬ Regex.float.Matches w := by
  intro h
  obtain ⟨g', u, x, v, rfl, h1, h2, h3, h4, h5⟩ := float_nf h
  obtain ⟨t, ht⟩ := hp
  have hx : x ∈ g ++ c :: ds := by rw [← ht]; simp
  rcases List.mem_append.1 hx with hx | hx
  · rcases hg with rfl | rfl
    · simp at hx
    · simp at hx; subst hx; simp at h3
  · have := hd x hx
    rcases h3 with rfl | rfl | rfl <;> exact absurd this (by unfold IsDig; decide)

theorem dec_no_float {w w' : Str} (h : Regex.dec.Matches w) (hp : w' <+: w) :
    ¬ Regex.float.Matches w' := by
  obtain ⟨g, d, ds, rfl, h1, h2, h3⟩ := dec_nf h
  refine digits_no_float h1 ?_ hp
  intro x hx
  simp at hx
  rcases hx with rfl | hx
  · exact ⟨Char.le_trans (by decide) h2.1, h2.2⟩
  · exact h3 x hx

theorem oct_no_float {w w' : Str} (h : Regex.oct.Matches w) (hp : w' <+: w) :
    ¬ Regex.float.Matches w' := by
  obtain ⟨g, ds, rfl, h1, h3⟩ := oct_nf h
  refine digits_no_float h1 ?_ hp
  intro x hx
  simp at hx
  rcases hx with rfl | hx
  · unfold IsDig; decide
  · exact h3 x hx

theorem hex_no_float {w w' : Str} (h : Regex.hex.Matches w) (hp : w' <+: w) :
    ¬ Regex.float.Matches w' := by
  intro h'
  obtain ⟨g, x, ds, rfl, h1, h2, -⟩ := hex_nf h
  obtain ⟨g', u, c, v, rfl, h1', h2', h3', -, h5⟩ := float_nf h'
  obtain ⟨t, ht⟩ := hp
  have hc : c ≠ '-' := by rintro rfl; simp at h3'
  rcases u with _ | ⟨d, _ | ⟨d', u⟩⟩
  · rw [List.nil_append, List.append_assoc, List.cons_append] at ht
    obtain ⟨rfl, rfl, -⟩ := sign_inj h1' h1 hc (by decide) ht
    simp at h3'
  · rw [List.append_assoc, List.cons_append, List.nil_append, List.cons_append] at ht
    obtain ⟨rfl, rfl, h⟩ := sign_inj h1' h1 (h2' d (by simp)).not_minus (by decide) ht
    simp at h
    obtain ⟨rfl, -⟩ := h
    rcases h2 with rfl | rfl <;> simp at h3'
  · rw [List.append_assoc, List.cons_append, List.cons_append] at ht
    obtain ⟨rfl, rfl, h⟩ := sign_inj h1' h1 (h2' d (by simp)).not_minus (by decide) ht
    simp at h
    obtain ⟨rfl, -⟩ := h
    have := h2' d' (by simp)
    rcases h2 with rfl | rfl <;> exact absurd this (by unfold IsDig; decide)

theorem zero_no_dec {g v w' : Str} (hg : Sign g) (hp : w' <+: g ++ '0' :: v) :
    ¬ Regex.dec.Matches w' := by
  intro h'
  obtain ⟨g', d, ds, rfl, h1, h2, -⟩ := dec_nf h'
  obtain ⟨t, ht⟩ := hp
  rw [List.append_assoc, List.cons_append] at ht
  have hd : d ≠ '-' := by rintro rfl; exact absurd h2.1 (by decide)
  obtain ⟨rfl, rfl, h⟩ := sign_inj h1 hg hd (by decide) ht
  exact absurd h2.1 (by decide)

theorem hex_no_dec {w w' : Str} (h : Regex.hex.Matches w) (hp : w' <+: w) :
    ¬ Regex.dec.Matches w' := by
  obtain ⟨g, x, ds, rfl, h1, h2, -⟩ := hex_nf h
  exact zero_no_dec h1 hp

theorem oct_no_dec {w w' : Str} (h : Regex.oct.Matches w) (hp : w' <+: w) :
    ¬ Regex.dec.Matches w' := by
  obtain ⟨g, ds, rfl, h1, -⟩ := oct_nf h
  exact zero_no_dec h1 hp

theorem oct_no_hex {w w' : Str} (h : Regex.oct.Matches w) (hp : w' <+: w) :
    ¬ Regex.hex.Matches w' := by
  intro h'
  obtain ⟨g, ds, rfl, h1, h2⟩ := oct_nf h
  obtain ⟨g', x, ds', rfl, h1', h2', -⟩ := hex_nf h'
  obtain ⟨t, ht⟩ := hp
  rw [List.append_assoc, List.cons_append] at ht
  obtain ⟨rfl, -, h⟩ := sign_inj h1' h1 (by decide) (by decide) ht
  have := h2 x (by rw [← h]; simp)
  rcases h2' with rfl | rfl <;> exact absurd this (by unfold IsDig; decide)

end Verif
