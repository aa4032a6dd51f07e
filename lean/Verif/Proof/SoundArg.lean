import Verif.Proof.SoundType
import Verif.Proof.Knot

/-!
# Soundness: arguments, and the recursive calls
-/

set_option linter.unusedSectionVars false

namespace Verif
open Nom Spec

variable {σ : Type} [DecidableEq σ] {leaf : ∀ α, Leaf α → P σ α}
  {Step : List σ → Str → List σ → Prop} {nt : ∀ α, NT α → P σ α}

/-- The first lexeme of a type other than a union is a word. -/
theorem nonAnyType_head {t : NonAnyType} {ls : List Str} (h : nonAnyType t ls) :
    ∃ i w ls', ls = w :: ls' ∧ name i [w] := by
  have wd : ∀ {c v}, c.isAlpha = true → v.all isIdentChar = true → Regex.word.Matches (c :: v) :=
    fun h1 h2 => word_iff.2 ⟨_, _, rfl, h1, by simpa using h2⟩
  cases t with
  | promise r =>
    simp only [nonAnyType] at h
    obtain ⟨_, _, rfl, rfl, -⟩ := h
    exact ⟨_, _, _, rfl, name_self (wd (by decide) (by decide))⟩
  | integer t q =>
    simp only [nonAnyType] at h
    obtain ⟨_, _, rfl, h, -⟩ := h
    cases t with
    | longLong u =>
      obtain ⟨_, _, rfl, h, _, _, rfl, rfl, -⟩ := h
      cases u <;> cases h <;> exact ⟨_, _, _, rfl, name_self (wd (by decide) (by decide))⟩
    | long u =>
      obtain ⟨_, _, rfl, h, rfl⟩ := h
      cases u <;> cases h <;> exact ⟨_, _, _, rfl, name_self (wd (by decide) (by decide))⟩
    | short u =>
      obtain ⟨_, _, rfl, h, rfl⟩ := h
      cases u <;> cases h <;> exact ⟨_, _, _, rfl, name_self (wd (by decide) (by decide))⟩
  | floatingPoint t q =>
    simp only [nonAnyType] at h
    obtain ⟨_, _, rfl, h, -⟩ := h
    cases t with
    | float u =>
      obtain ⟨_, _, rfl, h, rfl⟩ := h
      cases u <;> cases h <;> exact ⟨_, _, _, rfl, name_self (wd (by decide) (by decide))⟩
    | double u =>
      obtain ⟨_, _, rfl, h, rfl⟩ := h
      cases u <;> cases h <;> exact ⟨_, _, _, rfl, name_self (wd (by decide) (by decide))⟩
  | builtin b q =>
    simp only [nonAnyType] at h
    obtain ⟨_, _, rfl, rfl, -⟩ := h
    cases b <;> exact ⟨_, _, _, rfl, name_self (wd (by decide) (by decide))⟩
  | sequence t q =>
    simp only [nonAnyType] at h
    obtain ⟨_, _, rfl, ⟨_, _, rfl, rfl, -⟩, -⟩ := h
    exact ⟨_, _, _, rfl, name_self (wd (by decide) (by decide))⟩
  | frozenArray t q =>
    simp only [nonAnyType] at h
    obtain ⟨_, _, rfl, ⟨_, _, rfl, rfl, -⟩, -⟩ := h
    exact ⟨_, _, _, rfl, name_self (wd (by decide) (by decide))⟩
  | record k t q =>
    simp only [nonAnyType] at h
    obtain ⟨_, _, rfl, ⟨_, _, rfl, rfl, -⟩, -⟩ := h
    exact ⟨_, _, _, rfl, name_self (wd (by decide) (by decide))⟩
  | identifier i q =>
    simp only [nonAnyType] at h
    obtain ⟨_, _, rfl, ⟨h1, h2⟩, -⟩ := h
    rcases h2 with ⟨rfl, -⟩ | rfl
    · exact ⟨_, _, _, rfl, h1, .inl rfl⟩
    · exact ⟨_, _, _, rfl, h1, .inr rfl⟩

theorem type_head {t : Ty} {ls : List Str} (h : type t ls) :
    ∃ w ls', ls = w :: ls' ∧ (w = c!"(" ∨ ∃ i, name i [w]) := by
  cases t with
  | single t =>
    simp only [type] at h
    cases t with
    | any =>
      simp only [singleType] at h
      cases h
      exact ⟨_, _, rfl, .inr ⟨_, name_self (word_iff.2 ⟨_, _, rfl, by decide, by decide⟩)⟩⟩
    | nonAny t =>
      simp only [singleType] at h
      obtain ⟨i, w, ls', rfl, h1⟩ := nonAnyType_head h.1
      exact ⟨_, _, rfl, .inr ⟨i, h1⟩⟩
  | union ms q =>
    simp only [type] at h
    obtain ⟨_, _, rfl, ⟨_, _, rfl, rfl, -⟩, -⟩ := h
    exact ⟨_, _, rfl, .inl rfl⟩

theorem name_head {i w : Str} (h : name i [w]) : ∃ c v, w = c :: v ∧ (c.isAlpha = true ∨ c = '_') := by
  obtain ⟨h1, h2⟩ := h
  obtain ⟨c, v, rfl, hc, -⟩ := word_iff.1 h1
  simp at h2
  rcases h2 with rfl | rfl
  · exact ⟨_, _, rfl, .inl hc⟩
  · exact ⟨_, _, rfl, .inr rfl⟩

theorem type_head_bracket {t : Ty} {ls rest : List Str} (h : type t ls) : ¬ [c!"["] <+: ls ++ rest := by
  obtain ⟨w, ls', rfl, h1⟩ := type_head h
  simp
  rintro rfl
  rcases h1 with h1 | ⟨i, h1⟩
  · cases h1
  · obtain ⟨c, v, h2, h3⟩ := name_head h1
    simp at h2
    obtain ⟨rfl, rfl⟩ := h2
    simp at h3

theorem named_intro {T : Lang} {i w : Str} {a : List Str} {m r : List σ}
    (h : T a) (hj : NoJoin Step a m) (hw : Step m w r) (hn : name i [w]) :
    named T i (a ++ [w]) := ⟨a, [w], rfl, h, hn, hj w r hw⟩

theorem named_seq {T B : Lang} {i w : Str} {a b : List Str} {m r : List σ}
    (h : T a) (hj : NoJoin Step a m) (hw : Step m w r) (hn : name i [w]) (hb : B b) :
    (named T i ⨾ B) (a ++ ([w] ++ b)) :=
  ⟨a ++ [w], b, by simp, named_intro h hj hw hn, hb⟩

section
variable (hS : Stepping leaf Step) (hN : NtSound leaf Step nt)
include hS hN

theorem snd_singleArgument : Snd leaf Step nt G.singleArgument argument := by
  intro s r a e
  obtain ⟨m1, as, e1, e⟩ := run_bind_ok.1 e
  obtain ⟨m2, o, e2, e⟩ := run_bind_ok.1 e
  obtain ⟨m3, t, e3, e⟩ := run_bind_ok.1 e
  obtain ⟨m4, i, e4, e⟩ := run_bind_ok.1 e
  obtain ⟨m5, d, e5, e⟩ := run_bind_ok.1 e
  rw [run_pure] at e
  simp only [Res.ok.injEq] at e
  obtain ⟨rfl, rfl⟩ := e
  obtain ⟨l1, r1, h1⟩ := snd_attrs hS hN _ _ _ e1
  obtain ⟨l3, r3, h3⟩ := sndAt_attributedType hS hN _ _ _ e3
  obtain ⟨w, r4, h4⟩ := hS.ok (l := Leaf.ident) e4
  have h4' : name i [w] := ⟨h4.2, by simpa using h4.1⟩
  have hnm := h3.named r4 h4'
  simp only [argument]
  rcases run_optKw_ok e2 with ⟨rfl, k2⟩ | ⟨rfl, rfl, f2⟩
  · obtain ⟨l2, r2, h2⟩ := Snd.kw hS _ _ _ _ k2
    obtain ⟨m6, o5, e50, e6⟩ := run_bind_ok.1 e5
    rw [run_pure] at e6
    simp only [Res.ok.injEq] at e6
    obtain ⟨rfl, rfl⟩ := e6
    obtain ⟨m7, o6, e7, e8⟩ := run_bind_ok.1 e50
    rw [run_pure] at e8
    simp only [Res.ok.injEq] at e8
    obtain ⟨rfl, rfl⟩ := e8
    obtain ⟨l5, r5, h5⟩ := snd_default hS _ _ _ e7
    refine ⟨l1 ++ (l2 ++ ((l3 ++ [w]) ++ l5)),
      r1.append (r2.append ((r3.append (.one r4)).append r5)), seq_intro h1 ?_⟩
    simp only [if_true]
    cases h2
    exact seq_tok (seq_intro hnm h5)
  · obtain ⟨m6, o5, e50, e6⟩ := run_bind_ok.1 e5
    rw [run_pure] at e6
    simp only [Res.ok.injEq] at e6
    obtain ⟨rfl, rfl⟩ := e6
    have e5' := e50
    simp only [G.cond] at e5'
    simp only [Bool.false_eq_true, if_false] at e5'
    rw [run_pure] at e5'
    simp only [Res.ok.injEq] at e5'
    obtain ⟨rfl, rfl⟩ := e5'
    refine ⟨l1 ++ (l3 ++ [w]), r1.append (r3.append (.one r4)), seq_intro h1 ?_⟩
    simp only [Bool.false_eq_true, if_false]
    refine ⟨rfl, hnm, ?_⟩
    have hopt := (r3.append (.one r4)).not_prefix (fails_kw hS f2)
    cases as with
    | some as => simpa [Kw.text] using hopt
    | none =>
      have hm : m2 = s := by
        simp only [G.attrs, G.run, Nom.opt] at e1
        split at e1 <;> simp at e1
        exact e1.symm
      subst hm
      have hbr : ¬ [c!"["] <+: l3 ++ [w] := by
        obtain ⟨m', as', e6, e7⟩ := run_bind_ok.1 e3
        rw [e1] at e6
        simp only [Res.ok.injEq] at e6
        obtain ⟨rfl, rfl⟩ := e6
        obtain ⟨m', t', e8, e9⟩ := run_bind_ok.1 e7
        rw [run_pure] at e9
        simp only [Res.ok.injEq] at e9
        obtain ⟨rfl, rfl⟩ := e9
        simp only [AttributedAt, attributes] at h3
        obtain ⟨_, b, rfl, rfl, h3, -⟩ := h3
        exact type_head_bracket (t := t') h3
      have hopt' : ¬ [c!"optional"] <+: l3 ++ [w] := hopt
      simp only [Option.isSome_none, Bool.false_eq_true, if_false]
      simp only [List.forall_mem_cons]
      exact ⟨hopt', hbr, by simp⟩

theorem snd_variadicArgument : Snd leaf Step nt G.variadicArgument argument := fun s =>
  .bind (snd_attrs hS hN s) fun as _ _ _ h1 => .bind (snd_type hS hN _) fun t _ _ _ h2 =>
    .punctThen hS fun _ _ => .bindPure (f := fun i => Argument.variadic as t i)
      (.mono (Snd.ident hS _) fun _ _ _ h3 => by
        simp only [argument]; exact seq_intro h1 (seq_intro h2 (seq_tok h3)))

theorem snd_argument : Snd leaf Step nt G.argument argument := fun s =>
  .altsCons (snd_singleArgument hS hN s) fun _ =>
  .altsCons (snd_variadicArgument hS hN _) fun _ =>
  .altsNil

end

/-- The recursive calls are sound, whatever the recursion limit. -/
theorem ntSound (hS : Stepping leaf Step) (n : Nat) : NtSound leaf Step (ntRun leaf n) := by
  induction n with
  | zero =>
    constructor <;> intro s r a e <;> simp [G.run, ntRun] at e
  | succ n ih =>
    exact ⟨fun s r a e => sndAt_type hS ih s r a e, fun s r a e => sndAt_nonAnyType hS ih s r a e,
      fun s r a e => snd_unionMemberType hS ih s r a e, fun s r a e => snd_argument hS ih s r a e⟩

theorem ntSound_lim (hS : Stepping leaf Step) : NtSound leaf Step (ntLim leaf) :=
  ⟨fun s r a e => (ntSound hS _).type s r a e, fun s r a e => (ntSound hS _).nonAny s r a e,
    fun s r a e => (ntSound hS _).unionMember s r a e, fun s r a e => (ntSound hS _).argument s r a e⟩

end Verif
