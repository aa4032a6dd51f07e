import Verif.Proof.Lexer

/-! # Integer types at the beginning of a text -/

namespace Verif
open Nom Spec

/-- The words of an integer type. -/
def integerWords (t : IntegerType) : List Str :=
  match t with
  | .longLong u => (if u then [c!"unsigned"] else []) ++ [c!"long", c!"long"]
  | .long u => (if u then [c!"unsigned"] else []) ++ [c!"long"]
  | .short u => (if u then [c!"unsigned"] else []) ++ [c!"short"]

theorem integerType_words (t : IntegerType) : integerType t (integerWords t) := by
  cases t with
  | longLong u => cases u <;> exact ⟨_, _, rfl, rfl, [c!"long"], [c!"long"], rfl, rfl, rfl⟩
  | long u => cases u <;> exact ⟨_, _, rfl, rfl, rfl⟩
  | short u => cases u <;> exact ⟨_, _, rfl, rfl, rfl⟩

theorem begins_reads {ws : List Str} {s r : Str} (h : Begins ws s r) (hn : ws ≠ []) (hg : Good ws) (hr : NoTrivia r) :
    Reads CStep s ws r := by
  obtain ⟨t, b, rfl, h1, h2⟩ := h
  exact spelled_reads h1 h2 hn hg (strip_of_noTrivia hr)

theorem step_begins {w s r : Str} (h : CStep s w r) (hw : Solid w) : Begins [w] s r :=
  reads_spells (.one h) (by simp) ⟨.inl hw, trivial⟩

theorem good_integerWords (t : IntegerType) : Good (integerWords t) := by
  have a := solid_kw .unsigned
  have b := solid_kw .long
  have c := solid_kw .short
  cases t with
  | longLong u => cases u <;> simp [integerWords, Good] <;> simp_all [Kw.text]
  | long u => cases u <;> simp [integerWords, Good] <;> simp_all [Kw.text]
  | short u => cases u <;> simp [integerWords, Good] <;> simp_all [Kw.text]

/-- The type does not go on. -/
def IntEnds (t : IntegerType) (r : Str) : Prop := ∀ u, t = .long u → ∀ r', ¬ Begins [c!"long"] r r'

theorem noJoin_integer {t : IntegerType} {r : Str} (h : IntEnds t r) : NoJoin CStep (integerWords t) r := by
  intro w r' hw hm
  match t, h with
  | .longLong u, _ => cases u <;> simp [integerWords, twoWordTypes] at hm
  | .long u, h =>
    have : w = c!"long" := by cases u <;> simp [integerWords, twoWordTypes] at hm <;> exact hm
    subst this
    exact h u rfl r' (step_begins hw (solid_kw .long))
  | .short u, _ => cases u <;> simp [integerWords, twoWordTypes] at hm

variable {t : IntegerType} {s r : Str}

theorem integer_ok (h : Begins (integerWords t) s r) (hr : NoTrivia r) (he : IntEnds t r) :
    Ok charLeaf G.integerType s r t :=
  okInteger exact_char (integerType_words t) (begins_reads h (by cases t <;> simp [integerWords]) (good_integerWords t) hr)
    (noJoin_integer he)

/-- The first word. -/
theorem integer_first (h : Begins (integerWords t) s r) (hr : NoTrivia r) :
    ∃ k m, k ∈ [Kw.unsigned, .long, .short] ∧ CStep s k.text m := by
  have h := begins_reads h (by cases t <;> simp [integerWords]) (good_integerWords t) hr
  have key : ∃ k ls, k ∈ [Kw.unsigned, .long, .short] ∧ integerWords t = k.text :: ls := by
    cases t with
    | longLong u => cases u <;> first | exact ⟨.long, _, by decide, rfl⟩ | exact ⟨.unsigned, _, by decide, rfl⟩
    | long u => cases u <;> first | exact ⟨.long, _, by decide, rfl⟩ | exact ⟨.unsigned, _, by decide, rfl⟩
    | short u => cases u <;> first | exact ⟨.short, _, by decide, rfl⟩ | exact ⟨.unsigned, _, by decide, rfl⟩
  obtain ⟨k, ls, hk, h1⟩ := key
  rw [h1] at h
  cases h with
  | cons h _ => exact ⟨k, _, hk, h⟩

theorem query_ok {α β : Type} {g : G α} {f : α → Bool → β} {a : α} {q : Bool} {e : Str} (h : Ok charLeaf g s r a)
    (hq : Query r q e) : Ok charLeaf (G.mayBeNull f g) s e (f a q) := by
  have hs : Solid c!"?" := .inr (.inr (.inr ⟨.qMark, by decide, by decide, rfl⟩))
  refine .bind h (.bind ?_ .pure)
  cases hq with
  | yes h he =>
    have := begins_reads h (by simp) ⟨.inl hs, trivial⟩ he
    exact .optPunctT (okPunct exact_char (p := .qMark) (reads_one.1 this))
  | no h => exact .optPunctF (koPunct_of exact_char (k := .qMark) fun r' h' => h r' (step_begins h' hs))

theorem nonAny_integer {q : Bool} {e : Str} (h : Begins (integerWords t) s r) (hr : NoTrivia r) (he : IntEnds t r)
    (hq : Query r q e) : Ok charLeaf G.nonAnyType s e (.integer t q) := by
  obtain ⟨k, m, hk, h1⟩ := integer_first h hr
  exact .next (.left (koKw exact_char (solid_kw k) h1 (by simp at hk; rcases hk with rfl | rfl | rfl <;> decide)))
    (.here (query_ok (integer_ok h hr he) hq))

theorem type_integer {q : Bool} {e : Str} (h : Begins (integerWords t) s r) (hr : NoTrivia r) (he : IntEnds t r)
    (hq : Query r q e) : Ok charLeaf G.type s e (.single (.nonAny (.integer t q))) := by
  obtain ⟨k, m, hk, h1⟩ := integer_first h hr
  exact .here (.variant (.next (.kwAs (koKw exact_char (solid_kw k) h1
    (by simp at hk; rcases hk with rfl | rfl | rfl <;> decide))) (.here (.variant (nonAny_integer h hr he hq)))))

theorem returnType_integer {q : Bool} {e : Str} (h : Begins (integerWords t) s r) (hr : NoTrivia r) (he : IntEnds t r)
    (hq : Query r q e) : Ok charLeaf G.returnType s e (.type (.single (.nonAny (.integer t q)))) := by
  obtain ⟨k, m, hk, h1⟩ := integer_first h hr
  exact .next (.kwAs (koKw exact_char (solid_kw k) h1
    (by simp at hk; rcases hk with rfl | rfl | rfl <;> decide))) (.here (.variant (type_integer h hr he hq)))

theorem constType_integer {q : Bool} {e : Str} (h : Begins (integerWords t) s r) (hr : NoTrivia r) (he : IntEnds t r)
    (hq : Query r q e) : Ok charLeaf G.constType s e (.integer t q) :=
  .here (query_ok (integer_ok h hr he) hq)

end Verif
