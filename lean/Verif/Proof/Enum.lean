import Verif.Proof.Adjacent

/-! # The comma at the end of an enum -/

namespace Verif
open Nom Spec

def isStr : Tag → Bool
  | .str => true
  | .w t _ => t.head? = some '"'
  | _ => false

theorem has_isStr {v : Str} {t : Tag} (h : t.has ('"' :: v)) : isStr t = true := by
  match t, h with
  | .w t c, h =>
    obtain rfl : '"' :: v = t := h
    simp [isStr]
  | .name c, ⟨i, h1, h2⟩ =>
    obtain ⟨c, v, rfl, h3, -⟩ := word_iff.1 h1
    simp at h2
    obtain ⟨rfl, -⟩ := h2
    exact absurd h3 (by decide)
  | .str, _ => rfl
  | .num, h =>
    obtain ⟨c', v', h3, h5⟩ := Number.first h
    cases h3
    exact absurd h5 (not_number (.inr (.inr rfl)))

/-- Two lexemes, the first not a semicolon, belong to the same definition. -/
theorem locate {x y : Str} (hx : x ≠ c!";") : ∀ {ds : List Definition} {a b : List Str},
    definitions ds (a ++ x :: y :: b) → ∃ ds1 d ds2 a1 a2 b1 b2, ds = ds1 ++ d :: ds2 ∧ a = a1 ++ a2 ∧ b = b1 ++ b2 ∧
      definitions ds1 a1 ∧ definition d (a2 ++ x :: y :: b1) ∧ definitions ds2 b2
  | [], a, b, h => by
    have : a ++ x :: y :: b = [] := h
    simp at this
  | d :: ds, a, b, h => by
    obtain ⟨l1, l2, h1, h2, h3⟩ := h
    rcases List.append_eq_append_iff.1 h1 with ⟨c, rfl, h4⟩ | ⟨c, rfl, rfl⟩
    · -- `l1` goes beyond `a`
      match c, h4 with
      | [], h4 =>
        simp at h4
        subst h4
        obtain ⟨ds1, d', ds2, a1, a2, b1, b2, rfl, h5, rfl, h7, h8, h9⟩ := locate hx (a := []) h3
        simp at h5
        obtain ⟨rfl, rfl⟩ := h5
        refine ⟨d :: ds1, d', ds2, a, [], b1, b2, rfl, by simp, rfl, ⟨a, [], by simp, by simpa using h2, h7⟩, h8, h9⟩
      | [z], h4 =>
        simp at h4
        obtain ⟨rfl, rfl⟩ := h4
        obtain ⟨l, h5⟩ := semi_definition d _ h2
        have := congrArg List.getLast? h5
        simp at this
        exact absurd this hx
      | z :: z' :: c, h4 =>
        simp at h4
        obtain ⟨rfl, rfl, rfl⟩ := h4
        exact ⟨[], d, ds, [], a, c, l2, rfl, rfl, rfl, rfl, h2, h3⟩
    · obtain ⟨ds1, d', ds2, a1, a2, b1, b2, rfl, rfl, rfl, h7, h8, h9⟩ := locate hx h3
      exact ⟨d :: ds1, d', ds2, l1 ++ a1, a2, b1, b2, rfl, by simp, rfl, ⟨l1, a1, rfl, h2, h7⟩, h8, h9⟩

theorem relocate {d : Definition} {ds1 ds2 : List Definition} {a m b : List Str} (h1 : definitions ds1 a)
    (h2 : definition d m) (h3 : definitions ds2 b) : definitions (ds1 ++ d :: ds2) (a ++ (m ++ b)) :=
  definitions_append h1 ⟨m, b, rfl, h2, h3⟩

/-- After a string or comma, the closing brace is the last but one lexeme of an enum. -/
theorem enum_end {as : Attrs} {i : Str} {vs : List Str} {a b : List Str} {x : Str}
    (hx : ∀ t, Tag.has t x → isStr t = true ∨ could c!"," t = true)
    (h : definition (.enum as i vs) (a ++ x :: c!"}" :: b)) : b = [c!";"] := by
  obtain ⟨ts, h1, h2⟩ := sub_enum as i vs _ h
  obtain ⟨t, ht, hh⟩ := h2.at a.length x (by simp)
  obtain ⟨u, hu, hh'⟩ := h2.at (a.length + 1) c!"}" (by simp)
  have hu' : u = .w c!"}" 1 := by
    apply Decidable.byContradiction
    intro hc
    refine forbidden_sound (e := E.enum) (P := fun t => isStr t || could c!"," t)
      (Q := fun t => could c!"}" t && t != .w c!"}" 1) (by decide +kernel) h1 _ _ _ ht hu ?_ ?_
    · rcases hx t hh with h | h <;> simp [h]
    · simp [has_could hh', hc]
  subst hu'
  match b with
  | [] =>
    obtain ⟨l, h5⟩ := semi_definition _ _ h
    have := congrArg List.getLast? h5
    simp at this
  | [y] =>
    obtain ⟨l, h5⟩ := semi_definition _ _ h
    have := congrArg List.getLast? h5
    simp at this
    simp [this]
  | y :: y' :: b =>
    obtain ⟨v, hv, hv'⟩ := h2.at (a.length + 2) y (by simp)
    obtain ⟨v2, hv2, -⟩ := h2.at (a.length + 3) y' (by simp)
    exfalso
    by_cases e : v = .w c!";" 1
    · exact forbidden_sound (e := E.enum) (P := (· == .w c!";" 1)) (Q := fun _ => true) (by decide +kernel) h1 _ _ _ hv hv2
        (by simp [e]) rfl
    · exact forbidden_sound (e := E.enum) (P := (· == .w c!"}" 1)) (Q := (· != .w c!";" 1)) (by decide +kernel) h1 _ _ _ hu hv
        (by decide) (by simp [e])

theorem values_last {v : Str} : ∀ {vs : List Str} {ls : List Str}, sepBy comma ((v :: vs).map string) ls →
    ∃ l v', ls = l ++ ['"' :: v']
  | [], ls, h => ⟨[], _, h.2⟩
  | v' :: vs, ls, h => by
    obtain ⟨x, _, rfl, -, y, z, rfl, -, h⟩ := h
    obtain ⟨l, v', rfl⟩ := values_last (v := v') (vs := vs) h
    exact ⟨x ++ (y ++ l), v', by simp⟩

/-- What comes before the closing brace of an enum. -/
theorem enum_split {as : Attrs} {i : Str} {vs ls : List Str} : definition (.enum as i vs) ls ↔
    ∃ (m : List Str) (v : Str) (c : Bool), ls = m ++ ['"' :: v] ++ (if c then [c!","] else []) ++ [c!"}", c!";"] ∧
      ∀ c : Bool, definition (.enum as i vs) (m ++ ['"' :: v] ++ (if c then [c!","] else []) ++ [c!"}", c!";"]) := by
  constructor
  · rintro ⟨l1, _, rfl, h1, l2, _, rfl, h2, l3, _, rfl, h3, _, l4, rfl, ⟨l5, _, rfl, rfl, l6, _, rfl, ⟨hv, c, h6⟩, rfl⟩, rfl⟩
    obtain ⟨l7, l8, rfl, h7, h8⟩ := h6
    cases vs with
    | nil => exact absurd rfl hv
    | cons v vs =>
      obtain ⟨l, v', rfl⟩ := values_last h7
      refine ⟨l1 ++ l2 ++ l3 ++ [c!"{"] ++ l, v', c, ?_, fun c' => ?_⟩
      · cases c <;> cases h8 <;> simp
      · refine ⟨l1, _, ?_, h1, l2, _, rfl, h2, l3, _, rfl, h3, _, [c!";"], rfl,
          ⟨[c!"{"], _, rfl, rfl, (l ++ ['"' :: v']) ++ if c' then [c!","] else [], _, rfl, ⟨hv, c', _, _, rfl, h7, ?_⟩, rfl⟩, rfl⟩
        · simp
        · cases c' <;> rfl
  · rintro ⟨m, v, c, rfl, h⟩
    exact h c

theorem string_ne_comma {v : Str} : '"' :: v ≠ c!"," := by simp

theorem hasStr {v : Str} (t : Tag) (h : t.has ('"' :: v)) : isStr t = true ∨ could c!"," t = true := .inl (has_isStr h)

theorem append_last {α : Type} {a l : List α} {x y z : α} (h : a ++ x :: y :: [z] = l ++ [y, z]) : a ++ [x] = l := by
  have : (a ++ [x]) ++ [y, z] = l ++ [y, z] := by simpa using h
  exact List.append_cancel_right this

theorem notEnum_never {d : Definition} {as bs : List Str} {x : Str} (hx : (∃ v, x = '"' :: v) ∨ x = c!",")
    (h : definition d (as ++ x :: c!"}" :: bs)) : ∃ as i vs, d = .enum as i vs := by
  apply Classical.byContradiction
  intro hd
  obtain ⟨ts, h1, h2⟩ := sub_notEnum d (fun as i vs e => hd ⟨as, i, vs, e⟩) _ h
  obtain ⟨t, ht, hh⟩ := h2.at as.length x (by simp)
  obtain ⟨u, hu, hh'⟩ := h2.at (as.length + 1) c!"}" (by simp)
  refine forbidden_sound (e := E.notEnum) (P := fun t => isStr t || could c!"," t) (Q := could c!"}") (by decide +kernel)
    h1 _ _ _ ht hu ?_ (has_could hh')
  rcases hx with ⟨v, rfl⟩ | rfl
  · simp [has_isStr hh]
  · simp [has_could hh]

theorem definitions_comma {ds : List Definition} {a b : List Str} {v : Str} :
    definitions ds (a ++ ('"' :: v) :: c!"}" :: b) ↔ definitions ds (a ++ ('"' :: v) :: c!"," :: c!"}" :: b) := by
  constructor
  · intro h
    obtain ⟨ds1, d, ds2, a1, a2, b1, b2, rfl, rfl, rfl, h1, h2, h3⟩ := locate (by simp) h
    obtain ⟨as, i, vs, rfl⟩ := notEnum_never (.inl ⟨v, rfl⟩) h2
    obtain rfl := enum_end hasStr h2
    obtain ⟨m, v', c, h4, h5⟩ := enum_split.1 h2
    have h4 := append_last (l := m ++ ['"' :: v'] ++ if c then [c!","] else []) h4
    have h6 := h5 true
    cases c
    · simp only [Bool.false_eq_true, if_false, List.append_nil] at h4
      obtain ⟨rfl, h7⟩ := List.append_inj' h4 rfl
      simp at h7
      subst h7
      have := relocate h1 h6 h3
      simpa using this
    · simp only [if_true] at h4
      obtain ⟨-, h7⟩ := List.append_inj' h4 rfl
      simp at h7
  · intro h
    have h' : definitions ds ((a ++ ['"' :: v]) ++ c!"," :: c!"}" :: b) := by simpa using h
    obtain ⟨ds1, d, ds2, a1, a2, b1, b2, rfl, h0, rfl, h1, h2, h3⟩ := locate (by simp) h'
    obtain ⟨as, i, vs, rfl⟩ := notEnum_never (.inr rfl) h2
    obtain rfl := enum_end (fun t ht => .inr (has_could ht)) h2
    obtain ⟨m, v', c, h4, h5⟩ := enum_split.1 h2
    have h4 := append_last (l := m ++ ['"' :: v'] ++ if c then [c!","] else []) h4
    have h6 := h5 false
    cases c
    · simp only [Bool.false_eq_true, if_false, List.append_nil] at h4
      obtain ⟨-, h7⟩ := List.append_inj' h4 rfl
      simp at h7
    · simp only [if_true] at h4
      obtain ⟨rfl, -⟩ := List.append_inj' h4 rfl
      rw [← List.append_assoc] at h0
      obtain ⟨rfl, h7⟩ := List.append_inj' h0 rfl
      simp at h7
      subst h7
      have := relocate h1 h6 h3
      simpa using this

end Verif
