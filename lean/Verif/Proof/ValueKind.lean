import Verif.Proof.MemberKind
import Verif.Proof.Adjacent

/-! # Kinds of values and arguments -/

namespace Verif.MemberKind
open Nom Spec

theorem dig_ne {c d : Char} (h : IsDig c) (hd : ¬ IsDig d) : c ≠ d := by rintro rfl; exact hd h

/-- What the characters of a number are not. -/
theorem classify_number {g u : Str} (hg : Sign g) (hu : ∀ c ∈ u.head?, IsDig c ∨ c = '.') (hne : u ≠ []) (ls : List Str) :
    classifyValue ((g ++ u) :: ls) = classifyDigits u := by
  cases u with
  | nil => exact absurd rfl hne
  | cons c u =>
    have hc := hu c (by simp)
    have hn : ∀ d : Char, (¬ IsDig d ∧ d ≠ '.') → c ≠ d := by
      rintro d ⟨h1, h2⟩ rfl
      exact hc.elim h1 h2
    have n1 := hn 't' (by decide)
    have n2 := hn 'f' (by decide)
    have n3 := hn 'n' (by decide)
    have n4 := hn '[' (by decide)
    have n5 := hn '{' (by decide)
    have n6 := hn 'N' (by decide)
    have n7 := hn 'I' (by decide)
    have n8 := hn '"' (by decide)
    have n9 := hn '-' (by decide)
    rcases hg with rfl | rfl <;> simp [classifyValue, n1, n2, n3, n4, n5, n6, n7, n8, n9]

theorem classify_integer {i : IntegerLit} {ls : List Str} (h : integerLit i ls) : classifyValue ls = integerLitKind i := by
  match i, h with
  | .dec v, h =>
    obtain ⟨hm, rfl⟩ := h
    obtain ⟨g, d, ds, rfl, hg, hd, hs⟩ := dec_nf hm
    have hdd : IsDig d := ⟨Char.le_trans (by decide) hd.1, hd.2⟩
    rw [classify_number hg (by simpa using .inl hdd) (by simp)]
    have h0 : d ≠ '0' := by rintro rfl; exact absurd hd.1 (by decide)
    have hm : ∀ c, ¬ IsDig c → c ∉ d :: ds := by
      intro c hc hm
      rcases List.mem_cons.1 hm with rfl | hm
      · exact hc hdd
      · exact hc (hs c hm)
    have m1 := hm '.' (by decide)
    have m2 := hm 'e' (by decide)
    have m3 := hm 'E' (by decide)
    unfold classifyDigits
    rw [if_neg (by simp [h0]), if_neg (by simp only [m1, m2, m3, or_self, not_false_eq_true]), if_neg (by simp [h0])]
    rfl
  | .hex v, h =>
    obtain ⟨hm, rfl⟩ := h
    obtain ⟨g, x, ds, rfl, hg, hx, hs⟩ := hex_nf hm
    rw [classify_number hg (by simp; decide) (by simp)]
    unfold classifyDigits
    rw [if_pos (by rcases hx with rfl | rfl <;> simp)]
    rfl
  | .oct v, h =>
    obtain ⟨hm, rfl⟩ := h
    obtain ⟨g, ds, rfl, hg, hs⟩ := oct_nf hm
    rw [classify_number hg (by simp; decide) (by simp)]
    have hm : ∀ c, ¬ IsDig c → c ∉ '0' :: ds := by
      intro c hc hm
      rcases List.mem_cons.1 hm with rfl | hm
      · exact hc (by decide)
      · exact hc (hs c hm)
    have m1 := hm '.' (by decide)
    have m2 := hm 'e' (by decide)
    have m3 := hm 'E' (by decide)
    have m4 : ds.head? ≠ some 'x' := fun e => hm 'x' (by decide) (List.mem_cons_of_mem _ (List.mem_of_mem_head? e))
    have m5 : ds.head? ≠ some 'X' := fun e => hm 'X' (by decide) (List.mem_cons_of_mem _ (List.mem_of_mem_head? e))
    unfold classifyDigits
    rw [if_neg (by cases ds <;> simp_all), if_neg (by simp only [m1, m2, m3, or_self, not_false_eq_true]), if_pos (by simp)]
    rfl

theorem classify_float {f : FloatLit} {ls : List Str} (h : floatLit f ls) : classifyValue ls = .float := by
  match f, h with
  | .value v, h =>
    obtain ⟨hm, rfl⟩ := h
    obtain ⟨g, u, c, v, rfl, hg, hu, hc, -, hn⟩ := float_nf hm
    have hhead : ∀ x ∈ (u ++ c :: v).head?, IsDig x ∨ x = '.' := by
      intro x hx
      cases u with
      | nil =>
        rcases hn with hn | ⟨rfl, -⟩
        · exact absurd rfl hn
        · simp at hx; exact .inr hx.symm
      | cons d u => simp at hx; subst hx; exact .inl (hu _ (by simp))
    rw [classify_number hg hhead (by simp)]
    unfold classifyDigits
    have hx : ∀ x, ¬ IsDig x → x ≠ c → (u ++ c :: v).take 2 ≠ ['0', x] := by
      intro x h1 h2 e
      match u, hu with
      | [], _ =>
        rcases hn with hn | ⟨rfl, -⟩
        · exact absurd rfl hn
        · simp at e
      | [d], _ => simp at e; exact h2 e.2.symm
      | d :: d' :: u, hu => simp at e; exact h1 (e.2 ▸ hu d' (by simp))
    rw [if_neg, if_pos]
    · rcases hc with rfl | rfl | rfl <;> simp
    · rintro (e | e)
      · exact hx 'x' (by decide) (by rcases hc with rfl | rfl | rfl <;> decide) e
      · exact hx 'X' (by decide) (by rcases hc with rfl | rfl | rfl <;> decide) e
  | .negInfinity, h => obtain rfl : ls = [c!"-Infinity"] := h; decide
  | .infinity, h => obtain rfl : ls = [c!"Infinity"] := h; decide
  | .nan, h => obtain rfl : ls = [c!"NaN"] := h; decide

theorem classify_boolean {b : Bool} {ls : List Str} (h : booleanLit b ls) : classifyValue ls = .boolean := by
  cases b
  · obtain rfl : ls = [c!"false"] := h; decide
  · obtain rfl : ls = [c!"true"] := h; decide

theorem classify_default {v : DefaultValue} {ls : List Str} (h : defaultValue v ls) : classifyValue ls = defaultValueKind v := by
  match v, h with
  | .boolean b, h => exact classify_boolean h
  | .emptyArray, h => obtain ⟨_, _, rfl, rfl, rfl⟩ := h; decide
  | .emptyDictionary, h => obtain ⟨_, _, rfl, rfl, rfl⟩ := h; decide
  | .float f, h => exact classify_float h
  | .integer i, h => exact classify_integer h
  | .null, h => obtain rfl : ls = [c!"null"] := h; decide
  | .string v, h =>
    obtain ⟨-, rfl⟩ := h
    simp [classifyValue, defaultValueKind]

theorem classify_const {v : ConstValue} {ls : List Str} (h : constValue v ls) : classifyValue ls = constValueKind v := by
  match v, h with
  | .boolean b, h => exact classify_boolean h
  | .float f, h => exact classify_float h
  | .integer i, h => exact classify_integer h
  | .null, h => obtain rfl : ls = [c!"null"] := h; decide

/-! ## Arguments -/

def isDots : Tag → Bool
  | .w t _ => t = c!"..."
  | _ => false

theorem tagged_length {ts : List Tag} {ls : List Str} (h : Tagged ts ls) : ts.length = ls.length := by
  induction h with
  | nil => rfl
  | cons _ _ ih => simp [ih]

/-- No type ends with `...`. -/
theorem type_last {t : Ty} {ls : List Str} (h : type t ls) : ls.getLast? ≠ some c!"..." := by
  intro e
  obtain ⟨ts, h1, h2⟩ := sub_type t ls h
  have h3 : forbiddenIn E.ty isDots (fun _ => false) = true := by decide +kernel
  simp only [forbiddenIn, allRules, List.all_cons, List.all_nil, Bool.and_true, Bool.and_eq_true] at h3
  obtain ⟨⟨k1, k2, k3, k4, k5⟩, -⟩ := h3
  have h4 := (der_sound (T := (rows isDots (fun _ => false)).table) (P := isDots) (Q := fun _ => false)
    (by rintro (_ | _ | _ | _ | _) <;> assumption) h1).2.2.1
  rw [List.getLast?_eq_getElem?] at e
  obtain ⟨x, hx, hw⟩ := h2.at _ _ e
  have hl := tagged_length h2
  rw [← hl, ← List.getLast?_eq_getElem?] at hx
  have h5 : isDots x = true := by
    cases x with
    | w t c => simp only [Tag.has] at hw; simp [isDots, hw]
    | name c =>
      obtain ⟨i, h6, h7⟩ := hw
      obtain ⟨d, v, rfl, hd, -⟩ := word_iff.1 h6
      simp at h7
      rcases h7 with ⟨rfl, -⟩
      exact absurd hd (by decide)
    | str => obtain ⟨v, -, h7⟩ := hw; simp at h7
    | num =>
      exfalso
      rcases hw with hw | hw | hw | hw
      · obtain ⟨g, d, ds, h7, hg, hd, -⟩ := dec_nf hw
        rcases hg with rfl | rfl <;> simp at h7
        obtain ⟨rfl, -⟩ := h7
        exact absurd hd.1 (by decide)
      · obtain ⟨g, d, ds, h7, hg, hd, -⟩ := hex_nf hw
        rcases hg with rfl | rfl <;> simp at h7
      · obtain ⟨g, ds, h7, hg, -⟩ := oct_nf hw
        rcases hg with rfl | rfl <;> simp at h7
      · obtain ⟨g, u, c, v, h7, hg, hu, hc, hv, hn⟩ := float_nf hw
        rcases hg with rfl | rfl
        · cases u with
          | nil =>
            rcases hn with hn | ⟨rfl, d, v', rfl, hd⟩
            · exact absurd rfl hn
            · simp at h7
              obtain ⟨rfl, -⟩ := h7
              exact absurd hd (by decide)
          | cons d u =>
            simp at h7
            have := hu d (by simp)
            rw [← h7.1] at this
            exact absurd this (by decide)
        · simp at h7
  have h6 := h4 x hx h5
  revert h6
  decide +kernel

theorem variadic_append (x : List Str) (v w : Str) : classifyVariadic (x ++ [v, w]) = decide (v = c!"...") := by
  have : (x ++ [v, w]).dropLast = x ++ [v] := by rw [List.dropLast_append_of_ne_nil (by simp)]; rfl
  simp [classifyVariadic, this]

theorem type_nonempty {t : Ty} {ls : List Str} (h : type t ls) : ls ≠ [] := by
  rintro rfl
  obtain ⟨ts, h1, h2⟩ := sub_type t [] h
  cases h2
  have h3 : forbiddenIn E.ty isDots (fun _ => false) = true := by decide +kernel
  simp only [forbiddenIn, allRules, List.all_cons, List.all_nil, Bool.and_true, Bool.and_eq_true] at h3
  obtain ⟨⟨k1, k2, k3, k4, k5⟩, -⟩ := h3
  have h4 := (der_sound (T := (rows isDots (fun _ => false)).table) (P := isDots) (Q := fun _ => false)
    (by rintro (_ | _ | _ | _ | _) <;> assumption) h1).1 rfl
  revert h4
  decide +kernel

theorem variadic_named {t : Ty} {i : Str} {x a : List Str} (h : named (type t) i a) : classifyVariadic (x ++ a) = false := by
  obtain ⟨a, b, rfl, h1, h2, -⟩ := h
  obtain ⟨w, rfl, -⟩ := name_single h2
  obtain ⟨a, v, rfl⟩ := List.eq_nil_or_concat a |>.resolve_left (type_nonempty h1)
  have h3 := type_last h1
  simp at h3
  have h4 : x ++ (a.concat v ++ [w]) = (x ++ a) ++ [v, w] := by simp
  rw [h4, variadic_append]
  simpa using h3

theorem classify_argument {a : Argument} {ls : List Str} (h : argument a ls) : classifyVariadic ls = isVariadic a := by
  match a, h with
  | .variadic as t i, h =>
    simp only [argument] at h
    obtain ⟨a, _, rfl, -, b, _, rfl, -, _, _, rfl, rfl, hi⟩ := h
    obtain ⟨w, rfl, -⟩ := name_single hi
    have h4 : a ++ (b ++ ([c!"..."] ++ [w])) = (a ++ b) ++ [c!"...", w] := by simp
    rw [h4, variadic_append]
    rfl
  | .single as o (.mk bs t) i d, h =>
    simp only [argument] at h
    obtain ⟨a, b, rfl, -, hk⟩ := h
    cases o with
    | false =>
      obtain ⟨-, ⟨c, e, rfl, -, hn⟩, -⟩ := hk
      rw [← List.append_assoc, variadic_named hn]
      rfl
    | true =>
      obtain ⟨c, _, rfl, -, e, f, rfl, ⟨u, v, rfl, -, hn⟩, hd⟩ := hk
      cases d with
      | none =>
        obtain rfl : f = [] := hd
        have h4 : a ++ (c ++ (u ++ v ++ [])) = (a ++ c ++ u) ++ v := by simp
        rw [h4, variadic_named hn]
        rfl
      | some d =>
        obtain ⟨_, q, rfl, rfl, hd⟩ := hd
        obtain ⟨p, v1, w1, hp, hq⟩ : ∃ p v1 w1, [c!"="] ++ q = p ++ [v1, w1] ∧ v1 ≠ c!"..." := by
          match d, hd with
          | .boolean true, hd => obtain rfl : q = _ := hd; exact ⟨[], _, _, rfl, by decide⟩
          | .boolean false, hd => obtain rfl : q = _ := hd; exact ⟨[], _, _, rfl, by decide⟩
          | .emptyArray, hd => obtain ⟨_, _, rfl, rfl, rfl⟩ := hd; exact ⟨[c!"="], _, _, rfl, by decide⟩
          | .emptyDictionary, hd => obtain ⟨_, _, rfl, rfl, rfl⟩ := hd; exact ⟨[c!"="], _, _, rfl, by decide⟩
          | .float (.value _), hd => obtain ⟨-, rfl⟩ := hd; exact ⟨[], _, _, rfl, by decide⟩
          | .float .negInfinity, hd => obtain rfl : q = _ := hd; exact ⟨[], _, _, rfl, by decide⟩
          | .float .infinity, hd => obtain rfl : q = _ := hd; exact ⟨[], _, _, rfl, by decide⟩
          | .float .nan, hd => obtain rfl : q = _ := hd; exact ⟨[], _, _, rfl, by decide⟩
          | .integer (.dec _), hd => obtain ⟨-, rfl⟩ := hd; exact ⟨[], _, _, rfl, by decide⟩
          | .integer (.hex _), hd => obtain ⟨-, rfl⟩ := hd; exact ⟨[], _, _, rfl, by decide⟩
          | .integer (.oct _), hd => obtain ⟨-, rfl⟩ := hd; exact ⟨[], _, _, rfl, by decide⟩
          | .null, hd => obtain rfl : q = _ := hd; exact ⟨[], _, _, rfl, by decide⟩
          | .string _, hd => obtain ⟨-, rfl⟩ := hd; exact ⟨[], _, _, rfl, by decide⟩
        have h4 : a ++ (c ++ (u ++ v ++ ([c!"="] ++ q))) = (a ++ c ++ u ++ v ++ p) ++ [v1, w1] := by rw [hp]; simp
        rw [h4, variadic_append]
        simpa [isVariadic] using hq

end Verif.MemberKind
