import Verif.Proof.ByteRun
import Verif.Proof.Leaf

/-! # Terminals, grammar and recursion on bytes -/

namespace Verif
open Nom Spec

/-- The first byte tells whether the first character is an ASCII letter, digit, `_` or `-`. -/
theorem isIdentByte_utf8 (c : Char) : ∃ b bs, String.utf8EncodeChar c = b :: bs ∧ Byte.isIdentByte b = isIdentByte c := by
  have hv := Byte.val_lt c
  have key : isIdentByte c = true ↔ (0x30 ≤ c.val.toNat ∧ c.val.toNat ≤ 0x39) ∨ (0x41 ≤ c.val.toNat ∧ c.val.toNat ≤ 0x5A) ∨
      (0x61 ≤ c.val.toNat ∧ c.val.toNat ≤ 0x7A) ∨ c.val.toNat = 0x5F ∨ c.val.toNat = 0x2D := by
    have e1 : c = '_' ↔ c.val.toNat = 0x5F := by
      rw [Char.ext_iff, ← UInt32.toNat_inj]; rfl
    have e2 : c = '-' ↔ c.val.toNat = 0x2D := by
      rw [Char.ext_iff, ← UInt32.toNat_inj]; rfl
    simp only [isIdentByte, Char.isAlphanum, Char.isAlpha, Char.isUpper, Char.isLower, Char.isDigit, Bool.or_eq_true,
      Bool.and_eq_true, decide_eq_true_eq, beq_iff_eq, e1, e2, ge_iff_le, UInt32.le_iff_toNat_le]
    have a1 : '0'.val.toNat = 48 := rfl
    have a2 : '9'.val.toNat = 57 := rfl
    have a3 : 'A'.val.toNat = 65 := rfl
    have a4 : 'Z'.val.toNat = 90 := rfl
    have a5 : 'a'.val.toNat = 97 := rfl
    have a6 : 'z'.val.toNat = 122 := rfl
    rw [a1, a2, a3, a4, a5, a6]
    omega
  have key' : ∀ n, n < 256 → (Byte.isIdentByte (UInt8.ofNat n) = true ↔ (0x30 ≤ n ∧ n ≤ 0x39) ∨ (0x41 ≤ n ∧ n ≤ 0x5A) ∨
      (0x61 ≤ n ∧ n ≤ 0x7A) ∨ n = 0x5F ∨ n = 0x2D) := by
    intro n hn
    simp only [Byte.isIdentByte, Byte.u8 hn, Bool.or_eq_true, Bool.and_eq_true, decide_eq_true_eq, beq_iff_eq]
    omega
  unfold String.utf8EncodeChar
  generalize c.val.toNat = v at hv key ⊢
  simp only
  split
  · exact ⟨_, _, rfl, by rw [Bool.eq_iff_iff, key, key' _ (by omega)]⟩
  · split
    · exact ⟨_, _, rfl, by rw [Bool.eq_iff_iff, key, key' _ (by omega)]; omega⟩
    · split
      · exact ⟨_, _, rfl, by rw [Bool.eq_iff_iff, key, key' _ (by omega)]; omega⟩
      · exact ⟨_, _, rfl, by rw [Bool.eq_iff_iff, key, key' _ (by omega)]; omega⟩

theorem agree_identTag {t : Str} {t' : Bytes} (ht : t' = utf8 t) : Agree utf8 (identTag t) (Byte.identTag t') := by
  intro s
  obtain ⟨h1, h2⟩ := agree_tag ht s
  simp only [identTag, Byte.identTag, h1]
  cases hp : tag t s with
  | ok r a =>
    cases r with
    | nil => exact ⟨rfl, fun r' b h => by cases h; exact h2 _ _ hp⟩
    | cons c r =>
      obtain ⟨b, bs, h3, h4⟩ := isIdentByte_utf8 c
      simp only [mapUtf8, utf8_cons, h3, List.cons_append, h4]
      split
      · exact ⟨rfl, by simp⟩
      · refine ⟨?_, fun r' b h => by cases h; exact h2 _ _ hp⟩
        simp only [mapUtf8, utf8_cons, h3, List.cons_append]
  | err e => exact ⟨rfl, by simp⟩
  | diverge => exact ⟨rfl, by simp⟩

theorem agree_sp : Agree utf8 sp Byte.sp := by
  refine Agree.recognize (f := List.map id) (Agree.many0 ?_)
  refine .orElse ?_ (.orElse ?_ (.orElse ?_ .altEnd))
  · exact (agree_tag rfl).seq fun _ => (agree_takeUntil (by simp) rfl).seq fun _ => (agree_char _).seq fun _ => .ret id ()
  · exact (agree_takeWhile1 _).map fun _ => rfl
  · exact (agree_tag rfl).seq fun _ => (agree_takeUntil (by simp) rfl).seq fun _ => (agree_tag rfl).seq fun _ => .ret id ()

theorem Agree.ws {α β : Type} {f : α → β} {p : P Char α} {q : P UInt8 β} (h : Agree f p q) :
    Agree f (Verif.ws p) (Byte.ws q) :=
  agree_sp.seq fun _ => h.seq fun _ => agree_sp.seq fun _ => .ret f _

theorem agree_floatExp : Agree id floatExp Byte.floatExp :=
  (Agree.orElse (agree_char _) (.orElse (agree_char _) .altEnd)).seq fun _ =>
    (Agree.orElse (agree_char _) (.orElse (agree_char _) .altEnd)).opt.seq fun _ =>
      (agree_takeWhile1 _).seq fun _ => .ret id ()

theorem agree_chars {p : P Char Str} {q : P UInt8 Bytes} (h : Agree utf8 p q) : Agree id p (Nom.map Byte.chars q) := by
  have h := h.map (g := id) (k := id) (k' := Byte.chars) fun a => Byte.chars_utf8 a
  intro s
  obtain ⟨h1, h2⟩ := h s
  have e : Nom.map id p s = p s := by
    simp only [Nom.map, Nom.seq, Nom.ret]
    cases p s <;> rfl
  rw [e] at h1 h2
  exact ⟨h1, h2⟩

/-- The terminals return the same on a text and on its bytes. -/
theorem agree_leaf (α : Type) (l : Leaf α) : Agree id (charLeaf α l) (Byte.leaf α l) := by
  cases l with
  | punct p =>
    refine (Agree.ws (agree_tag ?_)).map fun _ => rfl
    cases p <;> rfl
  | kw k =>
    refine (Agree.ws (agree_identTag ?_)).map fun _ => rfl
    cases k <;> rfl
  | ident =>
    exact agree_chars (.ws ((agree_char _).opt.seq fun _ => (Agree.recognize (f := id) ((agree_takeWhile1 _).seq fun _ =>
      (agree_takeWhile _).seq fun _ => .ret id ())).seq fun _ => .ret utf8 _))
  | dec =>
    exact agree_chars (.ws (.recognize (f := id) ((agree_char _).opt.seq fun _ => (agree_oneOf _).seq fun _ =>
      (agree_takeWhile _).seq fun _ => .ret id ())))
  | hex =>
    exact agree_chars (.ws (.recognize (f := id) ((agree_char _).opt.seq fun _ => (agree_char _).seq fun _ =>
      (Agree.orElse (agree_char _) (.orElse (agree_char _) .altEnd)).seq fun _ =>
      (agree_takeWhile _).seq fun _ => .ret id ())))
  | oct =>
    exact agree_chars (.ws (.recognize (f := id) ((agree_char _).opt.seq fun _ => (agree_char _).seq fun _ =>
      (agree_takeWhile _).seq fun _ => .ret id ())))
  | float =>
    have h1 : Agree id floatIntDot Byte.floatIntDot :=
      (agree_takeWhile1 _).seq fun _ => (agree_char _).seq fun _ => (agree_takeWhile _).seq fun _ => .ret id ()
    have h2 : Agree id floatDotInt Byte.floatDotInt :=
      (agree_takeWhile _).seq fun _ => (agree_char _).seq fun _ => (agree_takeWhile1 _).seq fun _ => .ret id ()
    exact agree_chars (.ws (.recognize (f := id) ((agree_char _).opt.seq fun _ =>
      (Agree.orElse
        ((Agree.orElse h1 (.orElse h2 .altEnd)).seq fun _ => agree_floatExp.opt.seq fun _ => .ret id ())
        (.orElse ((agree_takeWhile1 _).seq fun _ => agree_floatExp.seq fun _ => .ret id ()) .altEnd)).seq fun _ =>
      .ret id ())))
  | string =>
    exact agree_chars (.ws ((agree_char _).seq fun _ => (agree_takeWhile _).seq fun _ =>
      (agree_char _).seq fun _ => .ret utf8 _))

theorem agree_run {nt : ∀ α, NT α → P Char α} {nt' : ∀ α, NT α → P UInt8 α}
    (h : ∀ α N, Agree id (nt α N) (nt' α N)) {α : Type} (g : G α) : Agree id (g.run charLeaf nt) (g.run Byte.leaf nt') := by
  induction g with
  | ret a => exact .ret id a
  | leaf l => exact agree_leaf _ l
  | bind g f ih1 ih2 => exact ih1.seq ih2
  | orElse g g' ih1 ih2 => exact ih1.orElse ih2
  | altEnd => exact .altEnd
  | opt g ih => exact Option.map_id ▸ ih.opt
  | many0 g ih => exact List.map_id_fun ▸ ih.many0
  | separatedList sep g ih1 ih2 => exact List.map_id_fun ▸ ih1.separatedList ih2
  | separatedNonemptyList sep g ih1 ih2 => exact List.map_id_fun ▸ ih1.separatedNonemptyList ih2
  | call n => exact h _ n

theorem agree_ntRun (n : Nat) : ∀ α N, Agree id (ntRun charLeaf n α N) (ntRun Byte.leaf n α N) := by
  induction n with
  | zero => intro α N s; exact ⟨rfl, by simp [ntRun]⟩
  | succ n ih => intro α N; exact agree_run ih _

theorem agree_ntLim (α : Type) (N : NT α) : Agree id (ntLim charLeaf α N) (ntLim Byte.leaf α N) := by
  intro s
  have hl := Byte.length_utf8 s
  obtain ⟨h1, h2⟩ := agree_ntRun ((utf8 s).length + 1) α N s
  rw [ntRun_eq charLeaf_fine (by omega)] at h1 h2
  exact ⟨h1, h2⟩

theorem agree_parse {α : Type} (g : G α) : Agree id g.parse g.parseBytes := agree_run agree_ntLim g

end Verif
