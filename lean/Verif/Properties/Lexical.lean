import Verif.Proof.Knot
import Verif.Spec.Repetition

/-!
# C09 - C16: terminals against regular expressions

`Skips s b`: skipping all leading trivia of `s` leaves `b` (`Verif/Spec/Lexical.lean`).
-/

namespace Verif.Properties
open Nom Spec

/-- After leading trivia, `w` is the longest match of `re`; skipping the trivia after it
leaves `r`. -/
def Finds (re : Regex) (s w r : Str) : Prop :=
  ∃ b e, Skips s b ∧ LongestMatch re b w e ∧ Skips e r

/-- After leading trivia there is no match of `re`. -/
def NoMatch (re : Regex) (s : Str) : Prop :=
  ∀ b w, Skips s b → w <+: b → ¬ re.Matches w

/-- A name character `[0-9A-Za-z_-]`. -/
def NameChar (c : Char) : Prop :=
  ('0' ≤ c ∧ c ≤ '9') ∨ ('A' ≤ c ∧ c ≤ 'Z') ∨ ('a' ≤ c ∧ c ≤ 'z') ∨ c = '_' ∨ c = '-'

/-! ## Helpers -/

theorem finds_iff {re : Regex} {s w r : Str} :
    Finds re s w r ↔ ∃ e, strip s = w ++ e ∧ re.Matches w ∧ Longest re w e ∧ r = strip e := by
  unfold Finds LongestMatch Longest
  simp only [skips_iff]
  constructor
  · rintro ⟨_, e, rfl, ⟨h1, h2, h3⟩, rfl⟩
    exact ⟨e, h1, h2, h1 ▸ h3, rfl⟩
  · rintro ⟨e, h1, h2, h3, rfl⟩
    exact ⟨_, e, rfl, ⟨h1, h2, h1 ▸ h3⟩, rfl⟩

theorem noMatch_iff {re : Regex} {s : Str} :
    NoMatch re s ↔ ∀ w e, strip s = w ++ e → ¬ re.Matches w := by
  unfold NoMatch
  simp only [skips_iff]
  constructor
  · intro h w e he
    exact h _ w rfl (he ▸ List.prefix_append _ _)
  · rintro h _ w rfl ⟨e, he⟩
    exact h w e he.symm

/-- Where there is a match there is a longest one. -/
theorem exists_longest {re : Regex} (b : Str) {w : Str} (hw : w <+: b) (hm : re.Matches w) :
    ∃ w e, LongestMatch re b w e := by
  have key : ∀ n, ∀ w, w <+: b → re.Matches w → b.length - w.length = n →
      ∃ w e, LongestMatch re b w e := by
    intro n
    induction n using Nat.strongRecOn with
    | ind n ih =>
      intro w hw hm hn
      by_cases h : ∃ w', w' <+: b ∧ re.Matches w' ∧ w.length < w'.length
      · obtain ⟨w', h1, h2, h3⟩ := h
        have := h1.length_le
        exact ih (b.length - w'.length) (by omega) w' h1 h2 rfl
      · obtain ⟨e, rfl⟩ := hw
        refine ⟨w, e, rfl, hm, fun w' h1 h2 => ?_⟩
        by_cases h3 : w'.length ≤ w.length
        · exact h3
        · exact absurd ⟨w', h1, h2, by omega⟩ h
  exact key _ w hw hm rfl

theorem fails_iff {α : Type} (l : Leaf α) (s : Str) :
    Fails (charLeaf α l) s ↔ ∀ r v, charLeaf α l s ≠ .ok r v := by
  have := charLeaf_fine α l s
  unfold Fails
  cases e : charLeaf α l s with
  | ok r v => simp
  | diverge => rw [e] at this; exact this.elim
  | err e' => rw [e] at this; cases e' <;> simp_all [Fine]

theorem ok_unique {re : Regex} {l : Leaf Str}
    (h : ∀ s r v, charLeaf Str l s = .ok r v ↔ Finds re s v r) (s : Str) :
    Fails (charLeaf Str l) s ↔ NoMatch re s := by
  rw [fails_iff]
  constructor
  · intro hf b w hb hw hm
    obtain ⟨w', e, hl⟩ := exists_longest b hw hm
    exact hf (strip e) w' ((h s _ _).2 ⟨b, e, hb, hl, skips_iff.2 rfl⟩)
  · intro hn r v hok
    obtain ⟨b, e, hb, ⟨rfl, hm, _⟩, _⟩ := (h s r v).1 hok
    exact hn _ v hb (List.prefix_append _ _) hm

/-! ## C09: identifiers -/

theorem identifier_iff {w : Str} : Regex.identifier.Matches w ↔
    Regex.word.Matches w ∨ ∃ v, w = '_' :: v ∧ Regex.word.Matches v := by
  unfold Regex.identifier
  rw [Regex.matches_seq]
  constructor
  · rintro ⟨u, v, rfl, hu, hv⟩
    rcases Regex.matches_opt.1 hu with h | rfl
    · rw [Regex.matches_chr.1 h]; exact .inr ⟨v, rfl, hv⟩
    · exact .inl hv
  · rintro (h | ⟨v, rfl, h⟩)
    · exact ⟨[], w, rfl, Regex.matches_opt.2 (.inr rfl), h⟩
    · exact ⟨['_'], v, rfl, Regex.matches_opt.2 (.inl (Regex.matches_chr.2 rfl)), h⟩

theorem longest_identifier {v w e : Str} (hv : Regex.word.Matches v) (hw : w = v ∨ w = '_' :: v) :
    Longest Regex.identifier w e ↔ NameEnd e := by
  obtain ⟨c, v', hc, hc', -⟩ := word_iff.1 hv
  have hne : c ≠ '_' := by rintro rfl; exact absurd hc' (by decide)
  rw [← longest_word hv]
  unfold Longest
  constructor
  · intro h w' h1 h2
    rcases hw with rfl | rfl
    · exact h w' h1 (identifier_iff.2 (.inl h2))
    · have := h ('_' :: w') (by simpa using h1) (identifier_iff.2 (.inr ⟨w', rfl, h2⟩))
      simpa using this
  · intro h w' h1 h2
    rcases identifier_iff.1 h2 with h3 | ⟨v'', rfl, h3⟩
    · rcases hw with rfl | rfl
      · exact h w' h1 h3
      · obtain ⟨d, d', rfl, hd, -⟩ := word_iff.1 h3
        simp at h1
        rw [h1.1] at hd
        exact absurd hd (by decide)
    · rcases hw with rfl | rfl
      · subst hc
        simp at h1
        exact absurd h1.1.symm hne
      · simp at h1 ⊢
        exact h v'' h1 h3

/-- `Identifier::parse`: the longest match of `_?[A-Za-z][0-9A-Z_a-z-]*`, without the leading
underscore. -/
theorem C09_identifier (s r v : Str) :
    identP s = .ok r v ↔
      ∃ w, Finds Regex.identifier s w r ∧ (w = '_' :: v ∨ w = v ∧ v.head? ≠ some '_') := by
  have : identP s = charLeaf Str .ident s := rfl
  rw [this, charLeaf_ok_iff]
  simp only [finds_iff, LeafText, LeafEnd]
  constructor
  · rintro ⟨w, e, h1, ⟨h2, h3⟩, h4, h5⟩
    refine ⟨w, ⟨e, h1, ?_, (longest_identifier h3 h2).2 h4, h5⟩, ?_⟩
    · rcases h2 with rfl | rfl
      · exact identifier_iff.2 (.inl h3)
      · exact identifier_iff.2 (.inr ⟨v, rfl, h3⟩)
    · rcases h2 with rfl | rfl
      · right
        obtain ⟨c, v', rfl, hc', -⟩ := word_iff.1 h3
        refine ⟨rfl, ?_⟩
        simp
        rintro rfl; exact absurd hc' (by decide)
      · exact .inl rfl
  · rintro ⟨w, ⟨e, h1, h2, h3, h4⟩, h5⟩
    have hv : (w = v ∨ w = '_' :: v) ∧ Regex.word.Matches v := by
      rcases identifier_iff.1 h2 with h6 | ⟨v', rfl, h6⟩
      · rcases h5 with rfl | ⟨rfl, -⟩
        · obtain ⟨c, v', hc, hc', -⟩ := word_iff.1 h6
          simp at hc
          rw [← hc.1] at hc'
          exact absurd hc' (by decide)
        · exact ⟨.inl rfl, h6⟩
      · rcases h5 with h5 | ⟨rfl, h7⟩
        · simp at h5; subst h5; exact ⟨.inr rfl, h6⟩
        · simp at h7
    exact ⟨w, e, h1, hv, (longest_identifier hv.2 hv.1).1 h3, h4⟩

example : ∃ w, Finds Regex.identifier c!" _a-b2 ;" w c!";" ∧ (w = '_' :: c!"a-b2" ∨ w = c!"a-b2" ∧ c!"a-b2".head? ≠ some '_') :=
  (C09_identifier _ _ _).1 rfl

theorem C09_fails (s : Str) : Fails identP s ↔ NoMatch Regex.identifier s := by
  have : identP = charLeaf Str .ident := rfl
  rw [this, fails_iff]
  constructor
  · intro hf b w hb hw hm
    obtain ⟨w', e, hl⟩ := exists_longest b hw hm
    have hl' := hl.2.1
    have hr : Finds Regex.identifier s w' (strip e) := ⟨b, e, hb, hl, skips_iff.2 rfl⟩
    rcases identifier_iff.1 hl' with h | ⟨v, rfl, h⟩
    · refine hf (strip e) w' ((C09_identifier s _ _).2 ⟨w', hr, .inr ⟨rfl, ?_⟩⟩)
      obtain ⟨c, v', rfl, hc', -⟩ := word_iff.1 h
      simp
      rintro rfl; exact absurd hc' (by decide)
    · exact hf (strip e) v ((C09_identifier s _ _).2 ⟨_, hr, .inl rfl⟩)
  · intro hn r v hok
    obtain ⟨w, ⟨b, e, hb, ⟨rfl, hm, _⟩, _⟩, _⟩ := (C09_identifier s r v).1 hok
    exact hn _ w hb (List.prefix_append _ _) hm

example : identP c!" /*x*/ _inter-face2 // y\n;" = .ok c!";" c!"inter-face2" := by rfl
example : Fails identP c!" 2a" := ⟨_, _, rfl⟩
example : Fails identP c!"__a" := ⟨_, _, rfl⟩

/-! ## C10: decimal literals -/

theorem C10_dec (s r v : Str) : decP s = .ok r v ↔ Finds Regex.dec s v r := by
  have : decP s = charLeaf Str .dec s := rfl
  rw [this, charLeaf_ok_iff, finds_iff]
  simp only [LeafText, LeafEnd]
  grind

example : Finds Regex.dec c!" -120 ;" c!"-120" c!";" := (C10_dec _ _ _).1 rfl

theorem C10_fails (s : Str) : Fails decP s ↔ NoMatch Regex.dec s :=
  ok_unique (l := .dec) C10_dec s

example : decP c!" -120 ;" = .ok c!";" c!"-120" := by rfl
example : Fails decP c!"012" := ⟨_, _, rfl⟩

/-! ## C11: hexadecimal literals -/

theorem C11_hex (s r v : Str) : hexP s = .ok r v ↔ Finds Regex.hex s v r := by
  have : hexP s = charLeaf Str .hex s := rfl
  rw [this, charLeaf_ok_iff, finds_iff]
  simp only [LeafText, LeafEnd]
  grind

example : Finds Regex.hex c!" -0XfF0g" c!"-0XfF0" c!"g" := (C11_hex _ _ _).1 rfl

theorem C11_fails (s : Str) : Fails hexP s ↔ NoMatch Regex.hex s :=
  ok_unique (l := .hex) C11_hex s

example : NoMatch Regex.hex c!"1x0" := (C11_fails _).1 ⟨_, _, rfl⟩

/-- Every documented hexadecimal literal is accepted as such. -/
theorem C11_documented (s r v : Str) (h : Finds Regex.hexDoc s v r) : hexP s = .ok r v := by
  rw [C11_hex]
  have hsub : ∀ w, Regex.hexDoc.Matches w → Regex.hex.Matches w := by
    intro w h
    obtain ⟨a, b, rfl, h1, h⟩ := Regex.matches_seq.1 h
    obtain ⟨c, d, rfl, h2, h⟩ := Regex.matches_seq.1 h
    obtain ⟨e, f, rfl, h3, h⟩ := Regex.matches_seq.1 h
    obtain ⟨x, y, rfl, h4, h⟩ := Regex.matches_seq.1 h
    exact .seq h1 (.seq h2 (.seq h3 (.starCons h4 h)))
  rw [finds_iff] at h ⊢
  obtain ⟨e, h1, h2, h3, h4⟩ := h
  refine ⟨e, h1, hsub _ h2, fun w' h5 h6 => ?_, h4⟩
  by_cases hd : Regex.hexDoc.Matches w'
  · exact h3 w' h5 hd
  · -- `w'` has no digit, so it is a prefix of `v`
    obtain ⟨a, b, rfl, k1, k⟩ := Regex.matches_seq.1 h6
    obtain ⟨c, d, rfl, k2, k⟩ := Regex.matches_seq.1 k
    obtain ⟨x, f, rfl, k3, k⟩ := Regex.matches_seq.1 k
    have hf : f = [] := by
      cases k with
      | starNil => rfl
      | starCons hu hv =>
        exact absurd (.seq k1 (.seq k2 (.seq k3 (.seq hu hv)))) hd
    subst hf
    obtain ⟨a', b', rfl, j1, j⟩ := Regex.matches_seq.1 h2
    obtain ⟨c', d', rfl, j2, j⟩ := Regex.matches_seq.1 j
    obtain ⟨x', f', rfl, j3, j⟩ := Regex.matches_seq.1 j
    obtain ⟨y', z', rfl, j4, j⟩ := Regex.matches_seq.1 j
    have l1 : a.length ≤ 1 := by
      rcases Regex.matches_opt.1 k1 with h | rfl
      · rw [Regex.matches_chr.1 h]; simp
      · simp
    have l2 : c.length = 1 := by rw [Regex.matches_chr.1 k2]; rfl
    have l2' : c'.length = 1 := by rw [Regex.matches_chr.1 j2]; rfl
    have l3 : x.length = 1 := by
      rcases Regex.matches_alt.1 k3 with h | h <;> rw [Regex.matches_chr.1 h] <;> rfl
    have l3' : x'.length = 1 := by
      rcases Regex.matches_alt.1 j3 with h | h <;> rw [Regex.matches_chr.1 h] <;> rfl
    have l4 : y'.length = 1 := by obtain ⟨c, rfl, _⟩ := Regex.matches_cls.1 j4; rfl
    simp
    omega

/-- The documentation is wrong: `0x` without digits is accepted although it does not match
`-?0[Xx][0-9A-Fa-f]+`. -/
theorem C11_undocumented : hexP c!"0x;" = .ok c!";" c!"0x" ∧ ¬ Regex.hexDoc.Matches c!"0x" := by
  refine ⟨rfl, fun h => ?_⟩
  obtain ⟨a, b, e1, h1, h⟩ := Regex.matches_seq.1 h
  obtain ⟨c, d, rfl, h2, h⟩ := Regex.matches_seq.1 h
  obtain ⟨e, f, rfl, h3, h⟩ := Regex.matches_seq.1 h
  obtain ⟨x, y, rfl, h4, h⟩ := Regex.matches_seq.1 h
  have l2 : c.length = 1 := by rw [Regex.matches_chr.1 h2]; rfl
  have l3 : e.length = 1 := by
    rcases Regex.matches_alt.1 h3 with h | h <;> rw [Regex.matches_chr.1 h] <;> rfl
  have l4 : x.length = 1 := by obtain ⟨c, rfl, _⟩ := Regex.matches_cls.1 h4; rfl
  have := congrArg List.length e1
  simp at this
  omega

example : hexP c!" -0XfF0g" = .ok c!"g" c!"-0XfF0" := by rfl
example : Finds Regex.hexDoc c!"0x1 ;" c!"0x1" c!";" := by
  rw [finds_iff]
  refine ⟨c!" ;", rfl, ?_, ?_, rfl⟩
  · exact .seq (u := []) (.right .eps) (.seq (u := ['0']) (.cls rfl)
      (.seq (u := ['x']) (.right (.cls rfl)) (.seq (u := ['1']) (.cls (by decide)) .starNil)))
  · intro w' h1 h2
    have h3 : ∀ c ∈ w', c ≠ ' ' := by
      obtain ⟨a, b, rfl, g1, h⟩ := Regex.matches_seq.1 h2
      obtain ⟨c, d, rfl, g2, h⟩ := Regex.matches_seq.1 h
      obtain ⟨e, f, rfl, h3, h⟩ := Regex.matches_seq.1 h
      obtain ⟨x, y, rfl, h4, h⟩ := Regex.matches_seq.1 h
      have k1 : ∀ c ∈ a, c ≠ ' ' := by
        rcases Regex.matches_opt.1 g1 with h | rfl
        · rw [Regex.matches_chr.1 h]; simp
        · simp
      have k2 : ∀ x ∈ c, x ≠ ' ' := by rw [Regex.matches_chr.1 g2]; simp
      have k3 : ∀ c ∈ e, c ≠ ' ' := by
        rcases Regex.matches_alt.1 h3 with h | h <;> rw [Regex.matches_chr.1 h] <;> simp
      have k4 : ∀ c ∈ x, c ≠ ' ' := by
        obtain ⟨c, rfl, hc⟩ := Regex.matches_cls.1 h4
        simp; rintro rfl; revert hc; decide
      have k5 : ∀ c ∈ y, c ≠ ' ' := by
        intro c hc
        have := Regex.matches_star_cls.1 h c hc
        rintro rfl; revert this; decide
      simp; grind
    obtain ⟨e, he⟩ := h1
    apply Decidable.byContradiction
    intro hlt
    have : ' ' ∈ w' := by
      match w', he, hlt with
      | [], _, h => simp at h
      | [_], _, h => simp at h
      | [_, _], _, h => simp at h
      | [_, _, _], _, h => simp at h
      | _ :: _ :: _ :: d :: _, he, _ => simp at he; simp [he]
    exact h3 _ this rfl

/-! ## C12: octal literals and classification -/

theorem C12_oct (s r v : Str) : octP s = .ok r v ↔ Finds Regex.oct s v r := by
  have : octP s = charLeaf Str .oct s := rfl
  rw [this, charLeaf_ok_iff, finds_iff]
  simp only [LeafText, LeafEnd]
  grind

example : Finds Regex.oct c!" -0178" c!"-017" c!"8" := (C12_oct _ _ _).1 rfl

theorem C12_oct_fails (s : Str) : Fails octP s ↔ NoMatch Regex.oct s :=
  ok_unique (l := .oct) C12_oct s

example : NoMatch Regex.oct c!" 10" := (C12_oct_fails _).1 ⟨_, _, rfl⟩

/-- What the two kinds of integers that start with `0` have in common. -/
theorem oct_of_hex {s w r : Str} (h : Finds Regex.hex s w r) : ¬ NoMatch Regex.oct s := by
  obtain ⟨b, e, hb, ⟨rfl, hm, _⟩, _⟩ := h
  obtain ⟨a, v, rfl, h1, h⟩ := Regex.matches_seq.1 hm
  obtain ⟨c, v', rfl, h2, h⟩ := Regex.matches_seq.1 h
  intro hn
  exact hn _ (a ++ (c ++ [])) hb ⟨v' ++ e, by simp⟩ (.seq h1 (.seq h2 .starNil))

/-- After an optional `-`, the first character of a match of `opt (chr '-') ⬝ cls p ⬝ re`. -/
theorem signed_head {p : Char → Prop} {re : Regex} (hp : ¬ p '-') {b w : Str}
    (h : (Regex.opt (Regex.chr '-') ⬝ Regex.cls p ⬝ re).Matches w) (hw : w <+: b) :
    ∃ c e, p c ∧ (b = c :: e ∨ b = '-' :: c :: e) ∧ c ≠ '-' := by
  obtain ⟨a, v, rfl, h1, h⟩ := Regex.matches_seq.1 h
  obtain ⟨c, v', rfl, h2, h⟩ := Regex.matches_seq.1 h
  obtain ⟨c, rfl, hc⟩ := Regex.matches_cls.1 h2
  obtain ⟨e, rfl⟩ := hw
  have hne : c ≠ '-' := by rintro rfl; exact hp hc
  rcases Regex.matches_opt.1 h1 with h | rfl
  · rw [Regex.matches_chr.1 h]
    exact ⟨c, v' ++ e, hc, .inr (by simp), hne⟩
  · exact ⟨c, v' ++ e, hc, .inl (by simp), hne⟩

theorem not_dec_of_zero {s : Str} (h : ¬ NoMatch Regex.dec s) : NoMatch Regex.oct s := by
  intro b w hb hw hm
  apply h
  intro b' w' hb' hw' hm'
  obtain rfl : b = b' := by rw [skips_iff.1 hb, skips_iff.1 hb']
  obtain ⟨c, e, hc, he, hne⟩ := signed_head (by decide) hm hw
  obtain ⟨c', e', hc', he', hne'⟩ := signed_head (by decide) hm' hw'
  obtain rfl : c = '0' := hc
  have : c' = '0' := by
    rcases he with rfl | rfl <;> rcases he' with h | h <;> simp at h
    · exact h.1.symm
    · exact absurd h.1.symm hne'
    · exact h.1.symm
  subst this
  exact absurd hc'.1 (by decide)

theorem integerLit_eq (s : Str) : G.integerLit.parse s =
    Nom.alt [Nom.map .dec decP, Nom.map .hex hexP, Nom.map .oct octP] s := rfl

theorem leaf_cases {α : Type} (l : Leaf α) (s : Str) :
    (∃ r v, charLeaf α l s = .ok r v) ∨ Fails (charLeaf α l) s := by
  have := charLeaf_fine α l s
  unfold Fails
  cases e : charLeaf α l s with
  | ok r v => exact .inl ⟨r, v, rfl⟩
  | diverge => rw [e] at this; exact this.elim
  | err e' => rw [e] at this; cases e' <;> simp_all [Fine]

theorem finds_noMatch {re : Regex} {s w r : Str} (h : Finds re s w r) : ¬ NoMatch re s := by
  obtain ⟨b, e, hb, ⟨rfl, hm, _⟩, _⟩ := h
  intro hn
  exact hn _ w hb (List.prefix_append _ _) hm

/-- `IntegerLit::parse`: a decimal literal if there is one, else a hexadecimal one if there is
one, else an octal one. -/
theorem C12_integer (s r : Str) (i : IntegerLit) :
    G.integerLit.parse s = .ok r i ↔
      (∃ v, i = .dec v ∧ Finds Regex.dec s v r) ∨
      (∃ v, i = .hex v ∧ Finds Regex.hex s v r) ∨
      (∃ v, i = .oct v ∧ Finds Regex.oct s v r ∧ NoMatch Regex.hex s) := by
  rw [integerLit_eq]
  have hd : decP = charLeaf Str .dec := rfl
  have hh : hexP = charLeaf Str .hex := rfl
  have ho : octP = charLeaf Str .oct := rfl
  simp only [Nom.alt, Nom.orElse, Nom.map, Nom.seq, Nom.ret, Nom.altEnd]
  simp only [← C10_dec, ← C11_hex, ← C12_oct, ← C11_fails]
  rcases hd ▸ leaf_cases .dec s with ⟨r', v, e⟩ | e
  · have h1 : Fails octP s :=
      (C12_oct_fails s).2 (not_dec_of_zero (finds_noMatch ((C10_dec _ _ _).1 e)))
    have h2 : ∀ r v, hexP s ≠ .ok r v := by
      intro r v h
      exact oct_of_hex ((C11_hex _ _ _).1 h) ((C12_oct_fails s).1 h1)
    obtain ⟨p, k, h1⟩ := h1
    rw [e, h1]
    simp [h2]
    grind
  · obtain ⟨p, k, e⟩ := e
    rw [e]
    rcases hh ▸ leaf_cases .hex s with ⟨r', v, e'⟩ | e'
    · rw [e']
      have : ¬ Fails hexP s := by rintro ⟨p, k, h⟩; rw [h] at e'; cases e'
      simp [this]
      grind
    · have e'' := e'
      obtain ⟨p, k, e''⟩ := e''
      rw [e'']
      rcases ho ▸ leaf_cases .oct s with ⟨r', v, f⟩ | ⟨p, k, f⟩ <;> rw [f] <;> simp [e'] <;> grind

example : NoMatch Regex.hex c!"01x" := by
  rcases (C12_integer c!"01x" c!"x" (.oct c!"01")).1 rfl with ⟨v, h, -⟩ | ⟨v, h, -⟩ | ⟨v, h, -, h'⟩
  · cases h
  · cases h
  · exact h'

/-- No text is both decimal and octal or hexadecimal. -/
theorem C12_disjoint (w : Str) (h : Regex.dec.Matches w) :
    ¬ Regex.oct.Matches w ∧ ¬ Regex.hex.Matches w ∧ ¬ (Regex.oct.Matches w ∧ Regex.hex.Matches w) := by
  obtain ⟨c', e', hc', he', hne'⟩ := signed_head (by decide) h List.prefix_rfl
  have key : ∀ {re : Regex}, ¬ (Regex.opt (Regex.chr '-') ⬝ Regex.chr '0' ⬝ re).Matches w := by
    intro re h
    obtain ⟨c, e, hc, he, hne⟩ := signed_head (by decide) h List.prefix_rfl
    obtain rfl : c = '0' := hc
    have : c' = '0' := by
      rcases he with rfl | rfl <;> rcases he' with h | h <;> simp at h
      · exact h.1.symm
      · exact absurd h.1.symm hne'
      · exact h.1.symm
    subst this
    exact absurd hc'.1 (by decide)
  exact ⟨key, key, fun h => key h.1⟩

example : G.integerLit.parse c!"0x1F;" = .ok c!";" (.hex c!"0x1F") := by rfl
example : G.integerLit.parse c!"017;" = .ok c!";" (.oct c!"017") := by rfl
example : G.integerLit.parse c!"-0 ;" = .ok c!";" (.oct c!"-0") := by rfl
example : G.integerLit.parse c!"-45 ;" = .ok c!";" (.dec c!"-45") := by rfl

/-! ## C13: float literals -/

theorem C13_float (s r v : Str) : floatP s = .ok r v ↔ Finds Regex.float s v r := by
  have : floatP s = charLeaf Str .float s := rfl
  rw [this, charLeaf_ok_iff, finds_iff]
  simp only [LeafText, LeafEnd]
  grind

example : Finds Regex.float c!" -.5e+10f" c!"-.5e+10" c!"f" := (C13_float _ _ _).1 rfl

theorem C13_fails (s : Str) : Fails floatP s ↔ NoMatch Regex.float s :=
  ok_unique (l := .float) C13_float s

example : floatP c!" -.5e+10f" = .ok c!"f" c!"-.5e+10" := by rfl
example : floatP c!"1.e" = .ok c!"e" c!"1." := by rfl
example : Fails floatP c!"12;" := ⟨_, _, rfl⟩

/-! ## C14: string literals -/

theorem C14_string (s r v : Str) :
    stringP s = .ok r v ↔
      ∃ b e, Skips s b ∧ b = '"' :: v ++ '"' :: e ∧ '"' ∉ v ∧ Skips e r := by
  have : stringP s = charLeaf Str .string s := rfl
  rw [this, charLeaf_ok_iff]
  simp only [LeafText, LeafEnd, skips_iff]
  constructor
  · rintro ⟨w, e, h1, ⟨rfl, h2⟩, -, rfl⟩
    exact ⟨_, e, rfl, by rw [h1]; simp, h2, rfl⟩
  · rintro ⟨_, e, rfl, h1, h2, rfl⟩
    exact ⟨'"' :: v ++ ['"'], e, by rw [h1]; simp, ⟨rfl, h2⟩, trivial, rfl⟩

example : ∃ b e, Skips c!" \"a/*\" ;" b ∧ b = '"' :: c!"a/*" ++ '"' :: e ∧ '"' ∉ c!"a/*" ∧ Skips e c!";" :=
  (C14_string _ _ _).1 rfl

theorem C14_fails (s : Str) :
    Fails stringP s ↔ ¬ ∃ v e, Skips s ('"' :: v ++ '"' :: e) ∧ '"' ∉ v := by
  have : stringP = charLeaf Str .string := rfl
  rw [this, fails_iff]
  constructor
  · rintro h ⟨v, e, h1, h2⟩
    exact h (strip e) v ((C14_string _ _ _).2 ⟨_, e, h1, rfl, h2, skips_iff.2 rfl⟩)
  · rintro h r v h1
    obtain ⟨b, e, h2, rfl, h3, -⟩ := (C14_string _ _ _).1 h1
    exact h ⟨v, e, h2, h3⟩

example : stringP c!" \"a // b /* c\n\" ;" = .ok c!";" c!"a // b /* c\n" := by rfl
example : Fails stringP c!"\"abc" := ⟨_, _, rfl⟩

/-! ## C15: keywords -/

theorem C15_keyword (k : Kw) (s r : Str) :
    kwP k s = .ok r () ↔
      ∃ b e, Skips s b ∧ b = k.text ++ e ∧ (∀ c e', e = c :: e' → ¬ NameChar c) ∧ Skips e r := by
  have : kwP k s = charLeaf Unit (.kw k) s := rfl
  have hN : ∀ e, NameEnd e ↔ ∀ c e', e = c :: e' → ¬ NameChar c := by
    intro e
    unfold NameEnd
    constructor
    · intro h c e' he hc
      have := h c e' he
      rw [(isIdentChar_iff c).2 hc] at this
      cases this
    · intro h c e' he
      have := h c e' he
      cases hc : isIdentChar c with
      | false => rfl
      | true => exact absurd ((isIdentChar_iff c).1 hc) this
  rw [this, charLeaf_ok_iff]
  simp only [LeafText, LeafEnd, skips_iff, hN]
  grind

example : ¬ ∃ r, kwP .or c!" organ" = .ok r () := by rintro ⟨r, h⟩; cases h
example : ∃ b e, Skips c!" or(" b ∧ b = Kw.or.text ++ e ∧ (∀ c e', e = c :: e' → ¬ NameChar c) ∧ Skips e c!"(" :=
  (C15_keyword _ _ _).1 rfl

theorem C15_fails (k : Kw) (s : Str) :
    Fails (kwP k) s ↔
      ∀ b e, Skips s b → b = k.text ++ e → ∃ c e', e = c :: e' ∧ NameChar c := by
  have : kwP k = charLeaf Unit (.kw k) := rfl
  rw [this, fails_iff]
  constructor
  · intro h b e hb he
    apply Classical.byContradiction
    intro hc
    refine h (strip e) () ((C15_keyword _ _ _).2 ⟨b, e, hb, he, ?_, skips_iff.2 rfl⟩)
    exact fun c e' h1 h2 => hc ⟨c, e', h1, h2⟩
  · intro h r v h1
    obtain ⟨b, e, h2, h3, h4, -⟩ := (C15_keyword _ _ _).1 h1
    obtain ⟨c, e', h5, h6⟩ := h b e h2 h3
    exact h4 c e' h5 h6

example : kwP .domString c!" DOMString Map" = .ok c!"Map" () := by rfl
example : Fails (kwP .domString) c!"DOMStringMap" := ⟨_, _, rfl⟩
example : Fails (kwP .domString) c!"DOMString-Map" := ⟨_, _, rfl⟩
example : kwP .interface c!"interface{" = .ok c!"{" () := by rfl

/-! ## C16, first half: the trivia skipper -/

/-- The skipper always succeeds; it returns the skipped prefix, which is trivia, and leaves
something that does not start with trivia. -/
theorem C16_skipper (s : Str) :
    ∃ t r, sp s = .ok r t ∧ s = t ++ r ∧ Trivia t ∧ NoTrivia r := by
  obtain ⟨l, h⟩ := many0_step s
  obtain ⟨t, h1, h2, h3⟩ := skips_strip s
  refine ⟨t, strip s, ?_, h1, h2, h3⟩
  have : sp s = .ok (strip s) (s.take (s.length - (strip s).length)) := by
    have e : sp s = recognize (many0 step) s := rfl
    rw [e]; unfold recognize; rw [h]
  rw [this]
  congr 1
  conv => lhs; arg 2; rw [h1]
  have : s.length - (strip s).length = t.length := by
    have := congrArg List.length h1
    simp at this; omega
  rw [this]; simp

example : sp c!" // a\n /* b */c // d" = .ok c!"c // d" c!" // a\n /* b */" := by rfl
example : sp c!"/* b" = .ok c!"/* b" [] := by rfl

end Verif.Properties
