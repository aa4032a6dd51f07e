import Verif.Proof.SoundArg

/-!
# Evaluation rules
-/

set_option linter.unusedSectionVars false

namespace Verif
open Nom Spec

variable {σ α β : Type} [DecidableEq σ] {leaf : ∀ α, Leaf α → P σ α}
  {Step : List σ → Str → List σ → Prop} {nt : ∀ α, NT α → P σ α} {s m r : List σ}

variable (leaf nt) in
/-- `g` succeeds on `s` with value `a` and remainder `r`. -/
abbrev OkAt (g : G α) (s r : List σ) (a : α) : Prop := g.run leaf nt s = .ok r a

theorem OkAt.pure {a : α} : OkAt leaf nt (Pure.pure a : G α) s s a := rfl

theorem OkAt.bind {g : G α} {f : α → G β} {a : α} {b : β} (h1 : OkAt leaf nt g s m a)
    (h2 : OkAt leaf nt (f a) m r b) : OkAt leaf nt (g >>= f) s r b :=
  run_bind_ok.2 ⟨m, a, h1, h2⟩

theorem OkAt.bindPure {g : G α} {f : α → β} {a : α} (h1 : OkAt leaf nt g s r a) :
    OkAt leaf nt (g >>= fun a => Pure.pure (f a)) s r (f a) := h1.bind .pure

theorem OkAt.variant {g : G α} {f : α → β} {a : α} (h1 : OkAt leaf nt g s r a) :
    OkAt leaf nt (G.variant f g) s r (f a) := h1.bindPure

theorem OkAt.here {g : G α} {gs : List (G α)} {a : α} (h : OkAt leaf nt g s r a) :
    OkAt leaf nt (G.alts (g :: gs)) s r a := by
  simp only [OkAt, G.alts, G.run, Nom.orElse]
  rw [h]

theorem OkAt.next {g : G α} {gs : List (G α)} {a : α} (h : FailsAt leaf nt g s)
    (h' : OkAt leaf nt (G.alts gs) s r a) : OkAt leaf nt (G.alts (g :: gs)) s r a := by
  obtain ⟨p, k, h⟩ := h
  simp only [OkAt, G.alts, G.run, Nom.orElse]
  rw [h]
  exact h'

theorem OkAt.some {g : G α} {a : α} (h : OkAt leaf nt g s r a) :
    OkAt leaf nt (.opt g) s r (some a) := by
  simp only [OkAt, G.run, Nom.opt]
  rw [h]

theorem OkAt.none {g : G α} (h : FailsAt leaf nt g s) :
    OkAt leaf nt (.opt g) s s none := by
  obtain ⟨p, k, h⟩ := h
  simp only [OkAt, G.run, Nom.opt]
  rw [h]

theorem OkAt.optKwT {k : Kw} (h : OkAt leaf nt (G.kw k) s r ()) :
    OkAt leaf nt (G.optKw k) s r true := h.some.bind .pure

theorem OkAt.optKwF {k : Kw} (h : FailsAt leaf nt (G.kw k) s) :
    OkAt leaf nt (G.optKw k) s s false := (OkAt.none h).bind .pure

theorem OkAt.optPunctT {k : Punct} (h : OkAt leaf nt (G.punct k) s r ()) :
    OkAt leaf nt (G.optPunct k) s r true := h.some.bind .pure

theorem OkAt.optPunctF {k : Punct} (h : FailsAt leaf nt (G.punct k) s) :
    OkAt leaf nt (G.optPunct k) s s false := (OkAt.none h).bind .pure

theorem FailsAt.left {g : G α} {f : α → G β} (h : FailsAt leaf nt g s) :
    FailsAt leaf nt (g >>= f) s := run_bind_fails.2 (.inl h)

theorem FailsAt.right {g : G α} {f : α → G β} {a : α} (h : OkAt leaf nt g s m a)
    (h' : FailsAt leaf nt (f a) m) : FailsAt leaf nt (g >>= f) s :=
  run_bind_fails.2 (.inr ⟨m, a, h, h'⟩)

theorem FailsAt.altsNil : FailsAt leaf nt (G.alts [] : G α) s := ⟨_, _, rfl⟩

theorem FailsAt.altsCons {g : G α} {gs : List (G α)} (h : FailsAt leaf nt g s)
    (h' : FailsAt leaf nt (G.alts gs) s) : FailsAt leaf nt (G.alts (g :: gs)) s := by
  obtain ⟨p, k, h⟩ := h
  obtain ⟨q, l, h'⟩ := h'
  refine ⟨q, l, ?_⟩
  simp only [G.alts, G.run, Nom.orElse]
  rw [h]
  exact h'

theorem FailsAt.alts {gs : List (G α)} (h : ∀ g ∈ gs, FailsAt leaf nt g s) :
    FailsAt leaf nt (G.alts gs) s := by
  induction gs with
  | nil => exact .altsNil
  | cons g gs ih =>
    simp only [List.forall_mem_cons] at h
    exact .altsCons h.1 (ih h.2)

theorem FailsAt.not_ok {g : G α} {a : α} (h : FailsAt leaf nt g s) : ¬ OkAt leaf nt g s r a := by
  obtain ⟨p, k, h⟩ := h
  intro h'
  rw [OkAt, h] at h'
  cases h'

theorem FailsAt.mayBeNull {g : G α} {f : α → Bool → β} (h : FailsAt leaf nt g s) :
    FailsAt leaf nt (G.mayBeNull f g) s := h.left

theorem FailsAt.kwAs {k : Kw} {a : α} (h : FailsAt leaf nt (G.kw k) s) :
    FailsAt leaf nt (G.kwAs k a) s := h.left

theorem FailsAt.variant {g : G α} {f : α → β} (h : FailsAt leaf nt g s) :
    FailsAt leaf nt (G.variant f g) s := h.left

theorem FailsAt.integerType (h1 : FailsAt leaf nt (G.kw .unsigned) s)
    (h2 : FailsAt leaf nt (G.kw .long) s) (h3 : FailsAt leaf nt (G.kw .short) s) :
    FailsAt leaf nt G.integerType s :=
  .altsCons (.right (.optKwF h1) h2.left) <| .altsCons (.right (.optKwF h1) h2.left) <|
  .altsCons (.right (.optKwF h1) h3.left) .altsNil

theorem FailsAt.floatingPointType (h1 : FailsAt leaf nt (G.kw .unrestricted) s)
    (h2 : FailsAt leaf nt (G.kw .float) s) (h3 : FailsAt leaf nt (G.kw .double) s) :
    FailsAt leaf nt G.floatingPointType s :=
  .altsCons (.right (.optKwF h1) h2.left) <| .altsCons (.right (.optKwF h1) h3.left) .altsNil

/-- A word that begins no keyword type is read as a type name. -/
theorem OkAt.typeWord {i : Str} {q : Bool}
    (hk : ∀ k ∈ [Kw.any, .promise, .unsigned, .long, .short, .unrestricted, .float, .double,
      .boolean, .byte, .octet, .byteString, .domString, .usvString, .sequence, .object, .symbol,
      .error, .arrayBuffer, .dataView, .int8Array, .int16Array, .int32Array, .uint8Array,
      .uint16Array, .uint32Array, .uint8ClampedArray, .float32Array, .float64Array,
      .arrayBufferView, .bufferSource, .frozenArray, .record], FailsAt leaf nt (G.kw k) s)
    (hi : OkAt leaf nt G.ident s m i) (hq : OkAt leaf nt (G.optPunct .qMark) m r q) :
    OkAt leaf nt G.type s r (.single (.nonAny (.identifier i q))) := by
  simp only [List.forall_mem_cons] at hk
  obtain ⟨k1, k2, k3, k4, k5, k6, k7, k8, k9, k10, k11, k12, k13, k14, k15, k16, k17, k18, k19, k20,
    k21, k22, k23, k24, k25, k26, k27, k28, k29, k30, k31, k32, k33, -⟩ := hk
  have b : ∀ {b : Builtin}, FailsAt leaf nt (G.kw (G.builtinKw b)) s →
    FailsAt leaf nt (G.builtin b) s := fun h => .mayBeNull (.kwAs h)
  refine .here (.variant (.next (.kwAs k1) (.here (.variant ?_))))
  refine .next (.left k2) <| .next (.mayBeNull (.integerType k3 k4 k5)) <|
    .next (.mayBeNull (.floatingPointType k6 k7 k8)) <|
    .next (b k9) <| .next (b k10) <| .next (b k11) <| .next (b k12) <| .next (b k13) <|
    .next (b k14) <| .next (.mayBeNull (.left k15)) <| .next (b k16) <| .next (b k17) <|
    .next (b k18) <| .next (b k19) <| .next (b k20) <| .next (b k21) <| .next (b k22) <|
    .next (b k23) <| .next (b k24) <| .next (b k25) <| .next (b k26) <| .next (b k27) <|
    .next (b k28) <| .next (b k29) <| .next (b k30) <| .next (b k31) <|
    .next (.mayBeNull (.left k32)) <| .next (.mayBeNull (.left k33)) <| .here ?_
  exact .bind hi (.bind hq .pure)

end Verif
