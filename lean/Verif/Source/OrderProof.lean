import Verif.Source.DeriveProof
import Verif.Proof.Bytes
import Verif.Spec.Order

/-!
# The order that is derived

Lemmas for C77.
-/

namespace Verif.Source
open Nom Spec

theorem dictionary_append (x : List Nat) (as bs : List Nat) : dictionary (x ++ as) (x ++ bs) = dictionary as bs := by
  induction x with
  | nil => rfl
  | cons c x ih =>
    have : cmpNat c c = .eq := cmpNat_eq.mpr rfl
    simp [dictionary, this, ih, Ordering.then]

theorem dictionary_lt {a b : Nat} (h : a < b) (as bs : List Nat) : dictionary (a :: as) (b :: bs) = .lt := by
  simp [dictionary, cmpNat_lt.mpr h, Ordering.then]

/-- One step of a comparison of bytes whose numbers are ordered as two quotients, then as the rests. -/
theorem dictionary_step {a b : Nat} (h : a ≤ b) {as bs : List Nat} (h' : a = b → dictionary as bs = .lt) :
    dictionary (a :: as) (b :: bs) = .lt := by
  rcases Nat.lt_or_eq_of_le h with h | rfl
  · exact dictionary_lt h as bs
  · have : cmpNat a a = .eq := cmpNat_eq.mpr rfl
    simp [dictionary, this, Ordering.then, h' rfl]

/-- UTF-8 keeps the order of code points. -/
theorem enc_lt {c d : Char} (h : c.val.toNat < d.val.toNat) (as bs : List Nat) :
    dictionary ((String.utf8EncodeChar c).map (·.toNat) ++ as) ((String.utf8EncodeChar d).map (·.toNat) ++ bs) = .lt := by
  have hc := Byte.val_lt c
  have hd := Byte.val_lt d
  unfold String.utf8EncodeChar
  generalize c.val.toNat = v at h hc ⊢
  generalize d.val.toNat = w at h hd ⊢
  simp only
  repeat' split
  all_goals simp only [List.map_cons, List.map_nil, List.cons_append, List.nil_append]
  all_goals first
    | omega
    | (repeat rw [Byte.u8 (by omega)])
  all_goals first
    | exact dictionary_lt (by omega) _ _
    | (refine dictionary_step (by omega) fun h1 => ?_
       exact dictionary_lt (by omega) _ _)
    | (refine dictionary_step (by omega) fun h1 => dictionary_step (by omega) fun h2 => ?_
       exact dictionary_lt (by omega) _ _)
    | (refine dictionary_step (by omega) fun h1 => dictionary_step (by omega) fun h2 => dictionary_step (by omega) fun h3 => ?_
       exact dictionary_lt (by omega) _ _)

theorem bytes_append (a b : Str) :
    (utf8 (a ++ b)).map (·.toNat) = (utf8 a).map (·.toNat) ++ (utf8 b).map (·.toNat) := by
  rw [utf8_append, List.map_append]

theorem before_lt {a b : Str} (h : Before a b) :
    dictionary ((utf8 a).map (·.toNat)) ((utf8 b).map (·.toNat)) = .lt := by
  rcases h with ⟨t, ht, rfl⟩ | ⟨p, c, d, x, y, rfl, rfl, h⟩
  · rw [bytes_append]
    have := dictionary_append ((utf8 a).map (·.toNat)) [] ((utf8 t).map (·.toNat))
    rw [List.append_nil] at this
    rw [this]
    cases t with
    | nil => exact absurd rfl ht
    | cons c t =>
      obtain ⟨b, bs, e, -, -⟩ := Byte.enc_shape c
      rw [utf8_cons, e]
      rfl
  · rw [bytes_append, bytes_append, dictionary_append, utf8_cons, utf8_cons, List.map_append, List.map_append]
    exact enc_lt h _ _

theorem before_total : ∀ a b : Str, Before a b ∨ a = b ∨ Before b a
  | [], [] => .inr (.inl rfl)
  | [], c :: b => .inl (.inl ⟨c :: b, by simp, rfl⟩)
  | c :: a, [] => .inr (.inr (.inl ⟨c :: a, by simp, rfl⟩))
  | c :: a, d :: b => by
    rcases Nat.lt_trichotomy c.toNat d.toNat with h | h | h
    · exact .inl (.inr ⟨[], c, d, a, b, rfl, rfl, h⟩)
    · have : c = d := Char.toNat_inj.mp h
      subst this
      have step {a b : Str} (h : Before a b) : Before (c :: a) (c :: b) := by
        rcases h with ⟨t, ht, rfl⟩ | ⟨p, e, f, x, y, rfl, rfl, h⟩
        · exact .inl ⟨t, ht, rfl⟩
        · exact .inr ⟨c :: p, e, f, x, y, rfl, rfl, h⟩
      rcases before_total a b with h | rfl | h
      · exact .inl (step h)
      · exact .inr (.inl rfl)
      · exact .inr (.inr (step h))
    · exact .inr (.inr (.inr ⟨[], d, c, b, a, rfl, rfl, h⟩))

theorem text_lt {a b : Str} : dictionary ((utf8 a).map (·.toNat)) ((utf8 b).map (·.toNat)) = .lt ↔ Before a b := by
  refine ⟨fun h => ?_, before_lt⟩
  rcases before_total a b with h' | rfl | h'
  · exact h'
  · rw [dictionary_eq.mpr rfl] at h; cases h
  · rw [dictionary_swap, before_lt h'] at h; cases h

theorem cmp_self {is : List Item} (hu : Unique is) {T : RTy} {a : Val} (h : HasType is T a) : a.cmp is a = some .eq := by
  obtain ⟨o, ho⟩ := compares hu h h
  have e : dictionary (a.word is) (a.word is) = o := by simpa [dictionary] using ho.word [] []
  rw [ho.cmp, ← e, dictionary_eq.mpr rfl]

theorem hasType_elements {is : List Item} {T : RTy} {v : Val} (h : HasType is T v) :
    ∀ vs, v = .list vs → ∀ a ∈ vs, ∃ U, HasType is U a := by
  induction h with
  | list h _ => intro vs e a ha; cases e; exact ⟨_, h a ha⟩
  | alias _ _ ih => exact ih
  | _ => intro vs e; cases e

theorem hasType_fields {is : List Item} {T : RTy} {v : Val} (h : HasType is T v) :
    ∀ n vs, v = .struct n vs → ∀ p ∈ vs, ∃ U, HasType is U p.2 := by
  induction h with
  | @struct T ps fs vs' hi hl hn h _ =>
    intro n vs e p hp
    cases e
    have hlen : fs.length = vs'.length := by simpa using (congrArg List.length hn).symm
    obtain ⟨i, hi, rfl⟩ := List.getElem_of_mem hp
    have : (fs[i]'(by omega), vs'[i]) ∈ fs.zip vs' := by
      rw [← List.getElem_zip (h := by simp; omega)]
      exact List.getElem_mem _
    exact ⟨_, h _ this⟩
  | alias _ _ ih => exact ih
  | _ => intro n vs e; cases e

theorem cmpList_append {is : List Item} : ∀ {cs : List Val}, (∀ c ∈ cs, c.cmp is c = some .eq) → ∀ as bs,
    cmpList is (cs ++ as) (cs ++ bs) = cmpList is as bs
  | [], _, _, _ => rfl
  | c :: cs, h, as, bs => by
    rw [List.cons_append, List.cons_append, cmpList, h c (.head _), andThen, cmpList_append fun d hd => h d (.tail _ hd)]

theorem cmpFields_append {is : List Item} : ∀ {cs : List (Str × Val)}, (∀ c ∈ cs, c.2.cmp is c.2 = some .eq) → ∀ as bs,
    cmpFields is (cs ++ as) (cs ++ bs) = cmpFields is as bs
  | [], _, _, _ => rfl
  | (x, c) :: cs, h, as, bs => by
    rw [List.cons_append, List.cons_append, cmpFields, if_pos rfl, h (x, c) (.head _), andThen,
      cmpFields_append fun d hd => h d (.tail _ hd)]

theorem andThen_ne {o : Ordering} (h : o ≠ .eq) (x : Option Ordering) : andThen (some o) x = some o := by
  cases o <;> first | rfl | exact absurd rfl h

theorem place_append {x : Str} {t : RTy} : ∀ {us vs : List (Str × RTy)}, (∀ u ∈ us, u.1 ≠ x) → place x (us ++ (x, t) :: vs) = some us.length
  | [], _, _ => by simp [place]
  | (y, u) :: us, vs, h => by
    have : y ≠ x := h (y, u) (.head _)
    simp [place, this, place_append (us := us) (vs := vs) fun u hu => h u (.tail _ hu)]

end Verif.Source
