import Verif.Spec.Bytes
import Verif.Proof.Sim

/-! # UTF-8: cutting between characters -/

namespace Verif
open Nom Spec

theorem utf8_nil : utf8 [] = [] := rfl
theorem utf8_cons (c : Char) (s : Str) : utf8 (c :: s) = String.utf8EncodeChar c ++ utf8 s := rfl
theorem utf8_append (s t : Str) : utf8 (s ++ t) = utf8 s ++ utf8 t := by simp [utf8]

namespace Byte

theorem isCont_ofNat {n : Nat} (h : n < 256) : isCont (UInt8.ofNat n) = (decide (0x80 ≤ n) && decide (n < 0xC0)) := by
  have : (UInt8.ofNat n).toNat = n := by simp; omega
  simp [isCont, this]

theorem val_lt (c : Char) : c.val.toNat < 0x110000 := by
  have : c.val.toNat < 0xd800 ∨ 0xdfff < c.val.toNat ∧ c.val.toNat < 0x110000 := c.valid
  omega

/-- The shape of a character's bytes. -/
theorem enc_shape (c : Char) : ∃ b bs, String.utf8EncodeChar c = b :: bs ∧ isCont b = false ∧ (∀ x ∈ bs, isCont x = true) := by
  have hv := val_lt c
  unfold String.utf8EncodeChar
  generalize c.val.toNat = v at hv ⊢
  simp only
  split
  · exact ⟨_, _, rfl, by rw [isCont_ofNat (by omega)]; simp <;> omega, by simp⟩
  · split
    · refine ⟨_, _, rfl, by rw [isCont_ofNat (by omega)]; simp <;> omega, ?_⟩
      simp only [List.forall_mem_cons, List.not_mem_nil, false_implies, implies_true, and_true]
      rw [isCont_ofNat (by omega)]; simp <;> omega
    · split
      · refine ⟨_, _, rfl, by rw [isCont_ofNat (by omega)]; simp <;> omega, ?_⟩
        simp only [List.forall_mem_cons, List.not_mem_nil, false_implies, implies_true, and_true]
        rw [isCont_ofNat (by omega), isCont_ofNat (by omega)]; simp <;> omega
      · refine ⟨_, _, rfl, by rw [isCont_ofNat (by omega)]; simp <;> omega, ?_⟩
        simp only [List.forall_mem_cons, List.not_mem_nil, false_implies, implies_true, and_true]
        rw [isCont_ofNat (by omega), isCont_ofNat (by omega), isCont_ofNat (by omega)]; simp <;> omega

theorem ofNat_val (c : Char) {n : Nat} (h : n = c.val.toNat) : Char.ofNat n = c := by
  subst h; exact Char.ofNat_toNat c

theorem u8 {n : Nat} (h : n < 256) : (UInt8.ofNat n).toNat = n := by simp; omega

/-- Decoding takes back encoding. -/
theorem nextChar_enc (c : Char) (r : Bytes) : nextChar (String.utf8EncodeChar c ++ r) = some (c, r) := by
  have hv := val_lt c
  have hc : ∀ n, n = c.val.toNat → Char.ofNat n = c := fun n h => ofNat_val c h
  unfold String.utf8EncodeChar
  generalize c.val.toNat = v at hv hc ⊢
  simp only
  split
  · simp only [List.cons_append, List.nil_append, nextChar]
    rw [u8 (by omega), if_pos (by omega), hc _ rfl]
  · split
    · simp only [List.cons_append, List.nil_append, nextChar]
      rw [u8 (by omega), u8 (by omega), if_neg (by omega), if_pos (by omega), hc _ (by omega)]
    · split
      · simp only [List.cons_append, List.nil_append, nextChar]
        rw [u8 (by omega), u8 (by omega), u8 (by omega), if_neg (by omega), if_neg (by omega), if_pos (by omega),
          hc _ (by omega)]
      · simp only [List.cons_append, List.nil_append, nextChar]
        rw [u8 (by omega), u8 (by omega), u8 (by omega), u8 (by omega), if_neg (by omega), if_neg (by omega),
          if_neg (by omega), hc _ (by omega)]

theorem lenUtf8_eq (c : Char) : lenUtf8 c = (String.utf8EncodeChar c).length := by
  unfold lenUtf8 String.utf8EncodeChar Char.toNat
  generalize c.val.toNat = v
  simp only
  repeat' split
  all_goals first | rfl | omega

theorem isBoundary_utf8 (a b : Str) : isBoundary (utf8 (a ++ b)) (utf8 a).length = true := by
  rw [utf8_append]
  unfold isBoundary
  rw [List.getElem?_append_right (Nat.le_refl _), Nat.sub_self]
  cases b with
  | nil => simp [utf8_nil]
  | cons c b =>
    obtain ⟨x, xs, h1, h2, h3⟩ := enc_shape c
    rw [utf8_cons, h1]
    simp [h2]

theorem takeSplit_utf8 (a b : Str) : takeSplit (utf8 a).length (utf8 (a ++ b)) = .ok (utf8 b) (utf8 a) := by
  unfold takeSplit
  rw [isBoundary_utf8, if_pos rfl, utf8_append]
  simp

theorem nextChar_utf8 (c : Char) (s : Str) : nextChar (utf8 (c :: s)) = some (c, utf8 s) := nextChar_enc c _

theorem length_utf8 (s : Str) : s.length ≤ (utf8 s).length := by
  induction s with
  | nil => simp
  | cons c s ih =>
    obtain ⟨x, xs, h1, -⟩ := enc_shape c
    rw [utf8_cons, h1]
    simp; omega

theorem charsLoop_utf8 (s : Str) (n : Nat) (h : s.length ≤ n) : charsLoop n (utf8 s) = s := by
  induction s generalizing n with
  | nil => cases n <;> simp [charsLoop, utf8_nil, nextChar]
  | cons c s ih =>
    obtain ⟨n, rfl⟩ : ∃ m, n = m + 1 := ⟨n - 1, by simp at h; omega⟩
    simp only [charsLoop, nextChar_utf8]
    rw [ih n (by simp at h; omega)]

theorem chars_utf8 (s : Str) : chars (utf8 s) = s := charsLoop_utf8 s _ (length_utf8 s)

theorem utf8_inj {s t : Str} (h : utf8 s = utf8 t) : s = t := by rw [← chars_utf8 s, h, chars_utf8]

theorem utf8_prefix {t s : Str} : utf8 t <+: utf8 s ↔ t <+: s := by
  constructor
  · intro h
    induction t generalizing s with
    | nil => exact List.nil_prefix
    | cons c t ih =>
      obtain ⟨r, hr⟩ := h
      cases s with
      | nil =>
        obtain ⟨x, xs, h1, -⟩ := enc_shape c
        rw [utf8_cons, h1] at hr
        simp [utf8_nil] at hr
      | cons d s =>
        have h1 := congrArg nextChar hr
        rw [utf8_cons, List.append_assoc, nextChar_enc, nextChar_utf8] at h1
        simp at h1
        obtain ⟨rfl, h2⟩ := h1
        exact List.cons_prefix_cons.2 ⟨rfl, ih ⟨r, h2⟩⟩
  · rintro ⟨r, rfl⟩
    rw [utf8_append]
    exact List.prefix_append _ _

theorem utf8_isPrefixOf (t s : Str) : (utf8 t).isPrefixOf (utf8 s) = t.isPrefixOf s := by
  rw [Bool.eq_iff_iff]
  simp [utf8_prefix]

theorem findLoop_utf8 (f : Char → Bool) (s : Str) (n : Nat) (h : s.length ≤ n) :
    findLoop f n (utf8 s) =
      if s.dropWhile (fun c => !f c) = [] then none else some (utf8 (s.takeWhile fun c => !f c)).length := by
  induction s generalizing n with
  | nil => cases n <;> simp [findLoop, utf8_nil, nextChar]
  | cons c s ih =>
    obtain ⟨n, rfl⟩ : ∃ m, n = m + 1 := ⟨n - 1, by simp at h; omega⟩
    simp only [findLoop, nextChar_utf8]
    cases hf : f c
    · rw [ih n (by simp at h; omega)]
      simp only [List.takeWhile_cons, List.dropWhile_cons, hf, Bool.not_false, if_true]
      rw [if_neg (by simp)]
      split
      · simp
      · simp [utf8_cons]; omega
    · simp [hf, utf8_nil]

theorem find_utf8 (f : Char → Bool) (s : Str) :
    find f (utf8 s) =
      if s.dropWhile (fun c => !f c) = [] then none else some (utf8 (s.takeWhile fun c => !f c)).length :=
  findLoop_utf8 f s _ (length_utf8 s)

theorem findSub_cont {t : Bytes} {x : UInt8} {xs : Bytes} (ht : t = x :: xs) (hx : isCont x = false) (bs r : Bytes)
    (h : ∀ b ∈ bs, isCont b = true) : findSub t (bs ++ r) = (findSub t r).map (· + bs.length) := by
  induction bs with
  | nil => simp
  | cons b bs ih =>
    have hb : t.isPrefixOf (b :: bs ++ r) = false := by
      have := h b (by simp)
      have : x ≠ b := by rintro rfl; simp_all
      simp [ht, List.isPrefixOf, this]
    rw [List.cons_append, findSub, ← List.cons_append, hb, ih (fun b hb => h b (by simp [hb]))]
    simp [Function.comp_def, Nat.add_assoc]

theorem findSub_utf8 {t : Str} (ht : t ≠ []) (s : Str) :
    findSub (utf8 t) (utf8 s) = (splitAtFirst t s).map fun p => (utf8 p.1).length := by
  obtain ⟨c0, t', rfl⟩ : ∃ c t', t = c :: t' := by cases t with | nil => exact absurd rfl ht | cons c t' => exact ⟨_, _, rfl⟩
  obtain ⟨x, xs, h1, h2, -⟩ := enc_shape c0
  have hx : utf8 (c0 :: t') = x :: (xs ++ utf8 t') := by rw [utf8_cons, h1]; rfl
  induction s with
  | nil =>
    simp only [utf8_nil, findSub, splitAtFirst]
    rw [hx]
    simp [List.isPrefixOf]
  | cons c s ih =>
    obtain ⟨b, bs, h3, h4, h5⟩ := enc_shape c
    have hp := utf8_isPrefixOf (c0 :: t') (c :: s)
    simp only [splitAtFirst]
    rw [← hp]
    have e : utf8 (c :: s) = b :: (bs ++ utf8 s) := by rw [utf8_cons, h3]; rfl
    rw [e]
    simp only [findSub]
    split
    · simp [utf8_nil]
    · rw [findSub_cont hx h2 _ _ h5, ih]
      cases splitAtFirst (c0 :: t') s with
      | none => rfl
      | some p => simp [utf8_cons, h3]; omega

end Byte
end Verif
