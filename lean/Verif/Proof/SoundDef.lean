import Verif.Proof.Eval

/-!
# Soundness: members and definitions
-/

set_option linter.unusedSectionVars false
set_option linter.unusedVariables false

namespace Verif
open Nom Spec

variable {σ : Type} [DecidableEq σ] {leaf : ∀ α, Leaf α → P σ α}
  {Step : List σ → Str → List σ → Prop} {nt : ∀ α, NT α → P σ α}

def modText : StringifierOrStatic → Str
  | .stringifier => c!"stringifier"
  | .static => c!"static"

def specialText : Special → Str
  | .getter => c!"getter"
  | .setter => c!"setter"
  | .deleter => c!"deleter"
  | .legacyCaller => c!"legacycaller"

section
variable (hS : Stepping leaf Step) (hN : NtSound leaf Step nt)
include hS hN

/-- A type, then a name, then the rest. -/
theorem SndAt.namedThen {α β : Type} {T : α → Lang} {g : G α} {f : α → Str → G β} {s : List σ}
    {N : β → List Str → List σ → Prop} (hg : SndAt leaf Step nt g s (TypeAt Step T))
    (h : ∀ t i ls m, Reads Step s ls m → named (T t) i ls →
      SndAt leaf Step nt (f t i) m (fun b ls' r => N b (ls ++ ls') r)) :
    SndAt leaf Step nt (g >>= fun t => G.ident >>= fun i => f t i) s N :=
  .bind hg fun t ls m hr h1 => .identThen hS fun w m' i h2 h3 =>
    .mono (h t i (ls ++ [w]) m' (hr.append (.one h2)) (named_intro h1.1 h1.2 h2 h3))
      fun _ _ _ h4 => by simpa using h4

/-- A type with attributes, then a name, then the rest. -/
theorem SndAt.attributedThen {β : Type} {f : AttributedType → Str → G β} {s : List σ}
    {N : β → List Str → List σ → Prop}
    (h : ∀ t i ls m, Reads Step s ls m → namedAttributed t i ls →
      SndAt leaf Step nt (f t i) m (fun b ls' r => N b (ls ++ ls') r)) :
    SndAt leaf Step nt (G.attributedType >>= fun t => G.ident >>= fun i => f t i) s N :=
  .bind (sndAt_attributedType hS hN s) fun t ls m hr h1 => .identThen hS fun w m' i h2 h3 =>
    .mono (h t i (ls ++ [w]) m' (hr.append (.one h2)) (h1.named h2 h3))
      fun _ _ _ h4 => by simpa using h4

theorem snd_constMember : Snd leaf Step nt G.constMember constMember := fun s =>
  .bind (snd_attrs hS hN s) fun _ _ _ _ h1 => .kwThen hS fun _ _ =>
  .namedThen hS hN (sndAt_constType hS _) fun _ _ _ _ _ h2 => .punctThen hS fun _ _ =>
  .bind (snd_constValue hS _) fun _ _ _ _ h3 => .punctEnd hS fun _ _ =>
    seq_intro h1 (seq_tok (seq_intro h2 (seq_tok (seq_intro h3 rfl))))

theorem snd_modifier : Snd leaf Step nt (.opt G.stringifierOrInheritOrStatic) modifier := fun _ =>
  .opt (.altsCons (.kwAs hS fun _ _ => rfl) fun _ => .altsCons (.kwAs hS fun _ _ => rfl) fun _ =>
    .altsCons (.kwAs hS fun _ _ => rfl) fun _ => .altsNil) fun _ => rfl

theorem snd_attributeInterfaceMember :
    Snd leaf Step nt G.attributeInterfaceMember attributeInterfaceMember := fun s =>
  .bind (snd_attrs hS hN s) fun _ _ _ _ h1 => .bind (snd_modifier hS hN _) fun _ _ _ _ h2 =>
  .bind (Snd.optKw hS _ _) fun _ _ _ _ h3 => .kwThen hS fun _ _ =>
  .attributedThen hS hN fun _ _ _ _ _ h4 => .punctEnd hS fun _ _ =>
    seq_intro h1 (seq_intro h2 (seq_intro h3 (seq_tok (seq_intro h4 rfl))))

theorem snd_constructorInterfaceMember :
    Snd leaf Step nt G.constructorInterfaceMember constructorInterfaceMember := fun s =>
  .bind (snd_attrs hS hN s) fun _ _ _ _ h1 => .kwThen hS fun _ _ =>
  .bind (snd_parenArgs hS hN _) fun _ _ _ _ h2 => .punctEnd hS fun _ _ =>
    seq_intro h1 (seq_tok (seq_intro h2 rfl))

/-- A failed choice of keywords: none of them is next. -/
theorem fails_kwAlts {α : Type} {ks : List (Kw × α)} {s : List σ}
    (h : FailsAt leaf nt (G.alts (ks.map fun k => G.kwAs k.1 k.2)) s) :
    ∀ k ∈ ks, NotNext Step s k.1.text := by
  induction ks with
  | nil => simp
  | cons k ks ih =>
    obtain ⟨p, q, h⟩ := h
    simp only [List.map_cons, G.alts, G.run, Nom.orElse] at h
    split at h
    · next e =>
      simp only [List.forall_mem_cons]
      exact ⟨fails_kwAs hS ⟨_, _, e⟩, ih ⟨_, _, h⟩⟩
    · next h1 => exact absurd h (h1 _ _)

/-- What an optional choice of keywords has read. -/
def OptRead {α : Type} (Step : List σ → Str → List σ → Prop) (text : α → Str) (all : List α)
    (s : List σ) (o : Option α) (ls : List Str) (r : List σ) : Prop :=
  match o with
  | none => ls = [] ∧ r = s ∧ ∀ k ∈ all, NotNext Step s (text k)
  | some a => ls = [text a]

theorem sndAt_stringifierOrStatic (s : List σ) :
    SndAt leaf Step nt (.opt G.stringifierOrStatic) s (OptRead Step
      modText [.stringifier, .static] s) := by
  refine .opt (.altsCons (.kwAs hS fun _ _ => rfl) fun _ =>
      .altsCons (.kwAs hS fun _ _ => rfl) fun _ => .altsNil) fun hf => ⟨rfl, rfl, ?_⟩
  have := fails_kwAlts (ks := [(.stringifier, StringifierOrStatic.stringifier), (.static, .static)]) hS hN hf
  simp only [List.forall_mem_cons] at this ⊢
  simpa [modText, specialText, Kw.text] using this

theorem sndAt_special (s : List σ) :
    SndAt leaf Step nt (.opt G.special) s (OptRead Step
      specialText [.getter, .setter, .deleter, .legacyCaller] s) := by
  refine .opt (.altsCons (.kwAs hS fun _ _ => rfl) fun _ => .altsCons (.kwAs hS fun _ _ => rfl) fun _ =>
      .altsCons (.kwAs hS fun _ _ => rfl) fun _ =>
      .altsCons (.kwAs hS fun _ _ => rfl) fun _ => .altsNil) fun hf => ⟨rfl, rfl, ?_⟩
  have := fails_kwAlts (ks := [(.getter, Special.getter), (.setter, .setter), (.deleter, .deleter),
    (.legacyCaller, .legacyCaller)]) hS hN hf
  simp only [List.forall_mem_cons] at this ⊢
  simpa [modText, specialText, Kw.text] using this

theorem sndAt_optKw (k : Kw) (s : List σ) :
    SndAt leaf Step nt (G.optKw k) s (fun b ls r =>
      (b = true ∧ ls = [k.text]) ∨ (b = false ∧ ls = [] ∧ r = s ∧ NotNext Step s k.text)) :=
  .optKw hS (fun _ _ => .inl ⟨rfl, rfl⟩) fun h => .inr ⟨rfl, rfl, rfl, h⟩

omit hS hN in
theorem optWord_intro {s m r : List σ} {b : Bool} {w : Str} {l1 l2 : List Str} {A : Lang}
    (h : (b = true ∧ l1 = [w]) ∨ (b = false ∧ l1 = [] ∧ m = s ∧ NotNext Step s w))
    (hr : Reads Step m l2 r) (h2 : A l2) : optWord b w A (l1 ++ l2) := by
  rcases h with ⟨rfl, rfl⟩ | ⟨rfl, rfl, rfl, h⟩
  · exact seq_tok h2
  · refine ⟨h2, ?_⟩
    simp only [List.forall_mem_cons]
    exact ⟨hr.not_prefix h, by simp⟩

omit hS hN in
theorem modified_intro {s m r : List σ} {o : Option StringifierOrStatic} {l1 l2 : List Str} {A : Lang}
    (h : OptRead Step modText
      [.stringifier, .static] s o l1 m)
    (hr : Reads Step m l2 r) (h2 : A l2) : modified o A (l1 ++ l2) := by
  cases o with
  | none =>
    obtain ⟨rfl, rfl, h⟩ := h
    refine ⟨h2, ?_⟩
    simp only [List.forall_mem_cons] at h ⊢
    exact ⟨hr.not_prefix h.1, hr.not_prefix h.2.1, by simp⟩
  | some k => cases k <;> cases h <;> exact seq_tok h2

omit hS hN in
theorem specialised_intro {s m r : List σ} {o : Option Special} {l1 l2 : List Str} {A : Lang}
    (h : OptRead Step specialText [.getter, .setter, .deleter, .legacyCaller] s o l1 m)
    (hr : Reads Step m l2 r) (h2 : A l2) : specialised o A (l1 ++ l2) := by
  cases o with
  | none =>
    obtain ⟨rfl, rfl, h⟩ := h
    refine ⟨h2, ?_⟩
    simp only [List.forall_mem_cons] at h ⊢
    exact ⟨hr.not_prefix h.1, hr.not_prefix h.2.1, hr.not_prefix h.2.2.1,
      hr.not_prefix h.2.2.2.1, by simp⟩
  | some k => cases k <;> cases h <;> exact seq_tok h2

/-- A return type and an optional name, then the rest. -/
theorem SndAt.returnNamedThen {β : Type} {f : ReturnType → Option Str → G β} {s : List σ}
    {N : β → List Str → List σ → Prop}
    (h : ∀ t i ls m, Reads Step s ls m → returnNamed t i ls →
      SndAt leaf Step nt (f t i) m (fun b ls' r => N b (ls ++ ls') r)) :
    SndAt leaf Step nt (G.returnType >>= fun t => G.opt G.ident >>= fun i => f t i) s N := by
  refine .bind (sndAt_returnType hS hN s) fun t ls m hr h1 => .bind
    (N1 := fun o ls' m' => (o = none ∧ ls' = [] ∧ m' = m) ∨
      ∃ i w, o = some i ∧ ls' = [w] ∧ name i [w] ∧ Step m w m')
    (.opt (.ident hS fun w m' i h2 h3 => .inr ⟨i, w, rfl, rfl, h3, h2⟩)
      fun _ => .inl ⟨rfl, rfl, rfl⟩) ?_
  rintro o ls' m' hr' (⟨rfl, rfl, rfl⟩ | ⟨i, w, rfl, rfl, h3, h2⟩)
  · exact .mono (h t none ls m' hr h1.1) fun _ _ _ h4 => by simpa using h4
  · exact .mono (h t (some i) (ls ++ [w]) m' (hr.append (.one h2)) (named_intro h1.1 h1.2 h2 h3))
      fun _ _ _ h4 => by simpa using h4

/-- A return type that begins with `constructor`. -/
theorem returnType_constructor {t : ReturnType} {ls : List Str}
    (h : returnType t (c!"constructor" :: ls)) : ls = [] ∨ ls = [c!"?"] := by
  cases t with
  | undefined => simp only [returnType] at h; cases h
  | type t =>
    simp only [returnType] at h
    replace h := h.1
    cases t with
    | union ms q =>
      simp only [type] at h
      obtain ⟨_, _, h, ⟨_, _, rfl, rfl, -⟩, -⟩ := h
      simp at h
    | single t =>
      simp only [type] at h
      cases t with
      | any => simp only [singleType] at h; cases h
      | nonAny t =>
        simp only [singleType] at h
        replace h := h.1
        cases t with
        | promise r => simp only [nonAnyType] at h; obtain ⟨_, _, h, rfl, -⟩ := h; simp at h
        | integer t q =>
          simp only [nonAnyType] at h
          obtain ⟨_, _, h, h', -⟩ := h
          cases t with
          | longLong u =>
            obtain ⟨_, _, rfl, h', _, _, rfl, rfl, -⟩ := h'
            cases u <;> cases h' <;> simp at h
          | long u => obtain ⟨_, _, rfl, h', rfl⟩ := h'; cases u <;> cases h' <;> simp at h
          | short u => obtain ⟨_, _, rfl, h', rfl⟩ := h'; cases u <;> cases h' <;> simp at h
        | floatingPoint t q =>
          simp only [nonAnyType] at h
          obtain ⟨_, _, h, h', -⟩ := h
          cases t with
          | float u => obtain ⟨_, _, rfl, h', rfl⟩ := h'; cases u <;> cases h' <;> simp at h
          | double u => obtain ⟨_, _, rfl, h', rfl⟩ := h'; cases u <;> cases h' <;> simp at h
        | builtin b q =>
          simp only [nonAnyType] at h
          obtain ⟨_, _, h, rfl, -⟩ := h
          cases b <;> simp [builtinWord] at h
        | sequence t q =>
          simp only [nonAnyType] at h
          obtain ⟨_, _, h, ⟨_, _, rfl, rfl, -⟩, -⟩ := h
          simp at h
        | frozenArray t q =>
          simp only [nonAnyType] at h
          obtain ⟨_, _, h, ⟨_, _, rfl, rfl, -⟩, -⟩ := h
          simp at h
        | record k t q =>
          simp only [nonAnyType] at h
          obtain ⟨_, _, h, ⟨_, _, rfl, rfl, -⟩, -⟩ := h
          simp at h
        | identifier i q =>
          simp only [nonAnyType] at h
          obtain ⟨_, _, h, ⟨-, h1⟩, h2⟩ := h
          have : ls = [] ∨ ls = [c!"?"] := by
            rcases h1 with ⟨rfl, -⟩ | rfl <;> cases q <;> cases h2 <;> simp at h <;> simp [h]
          exact this


theorem sndAt_operationInterfaceMember {s : List σ}
    (hf : FailsAt leaf nt G.constructorInterfaceMember s) :
    SndAt leaf Step nt G.operationInterfaceMember s (fun a ls _ => operationInterfaceMember a ls) := by
  intro r a e
  obtain ⟨m1, as, e1, e⟩ := run_bind_ok.1 e
  obtain ⟨m2, o, e2, e⟩ := run_bind_ok.1 e
  obtain ⟨m3, sp, e3, e⟩ := run_bind_ok.1 e
  obtain ⟨m4, t, e4, e⟩ := run_bind_ok.1 e
  obtain ⟨m5, i, e5, e⟩ := run_bind_ok.1 e
  obtain ⟨m6, args, e6, e⟩ := run_bind_ok.1 e
  obtain ⟨m7, ⟨⟩, e7, e⟩ := run_bind_ok.1 e
  rw [run_pure] at e
  simp only [Res.ok.injEq] at e
  obtain ⟨rfl, rfl⟩ := e
  obtain ⟨l1, r1, h1⟩ := snd_attrs hS hN _ _ _ e1
  obtain ⟨l2, r2, h2⟩ := sndAt_stringifierOrStatic hS hN _ _ _ e2
  obtain ⟨l3, r3, h3⟩ := sndAt_special hS hN _ _ _ e3
  obtain ⟨l4, r4, h4, j4⟩ := sndAt_returnType hS hN _ _ _ e4
  obtain ⟨l6, r6, h6⟩ := snd_parenArgs hS hN _ _ _ e6
  obtain ⟨_, r7, rfl⟩ := Snd.punct hS _ _ _ _ e7
  have h5 : SndAt leaf Step nt (.opt G.ident) m4 (fun o ls' m' =>
      (o = none ∧ ls' = [] ∧ m' = m4) ∨
      ∃ i w, o = some i ∧ ls' = [w] ∧ name i [w] ∧ Step m4 w m') :=
    .opt (.ident hS fun w m' i h2 h3 => .inr ⟨i, w, rfl, rfl, h3, h2⟩)
      fun _ => .inl ⟨rfl, rfl, rfl⟩
  obtain ⟨l5, r5, h5⟩ := h5 _ _ e5
  have r67 := r6.append r7
  have hret : returnNamed t i (l4 ++ l5) := by
    rcases h5 with ⟨rfl, rfl, rfl⟩ | ⟨j, w, rfl, rfl, hw, hs⟩
    · simpa [returnNamed] using h4
    · exact named_intro h4 j4 hs hw
  have r47 := (r4.append r5).append r67
  have r37 := r3.append r47
  refine ⟨l1 ++ (l2 ++ (l3 ++ ((l4 ++ l5) ++ (l6 ++ [_])))), r1.append (r2.append r37),
    seq_intro h1 ⟨modified_intro h2 r37 (specialised_intro h3 r47 (seq_intro hret
      (seq_intro h6 rfl))), ?_⟩⟩
  simp only [List.mem_singleton, forall_eq]
  intro hp
  -- the text begins with `constructor (`
  have q2 : l2 = [] ∧ m2 = m1 := by
    cases o with
    | none => exact ⟨h2.1, h2.2.1⟩
    | some x => cases x <;> cases h2 <;> simp [modText] at hp
  obtain ⟨rfl, rfl⟩ := q2
  have q3 : l3 = [] ∧ m3 = m2 := by
    cases sp with
    | none => exact ⟨h3.1, h3.2.1⟩
    | some x => cases x <;> cases h3 <;> simp [specialText] at hp
  obtain ⟨rfl, rfl⟩ := q3
  obtain ⟨_, _, hl6, rfl, -⟩ := h6
  subst hl6
  have q4 : l4 = [c!"constructor"] ∧ l5 = [] := by
    have hne : l4 ≠ [] := by
      rintro rfl
      cases t with
      | undefined => simp only [returnType] at h4; cases h4
      | type t =>
        simp only [returnType] at h4
        obtain ⟨_, _, h, _⟩ := type_head h4.1
        simp at h
    cases l4 with
    | nil => exact absurd rfl hne
    | cons w l4 =>
      simp at hp
      obtain ⟨rfl, hp⟩ := hp
      rcases returnType_constructor hS hN h4 with rfl | rfl
      · refine ⟨rfl, ?_⟩
        rcases h5 with ⟨rfl, rfl, rfl⟩ | ⟨j, w, rfl, rfl, hw, hs⟩
        · rfl
        · simp at hp
          subst hp
          obtain ⟨c, v, h, h'⟩ := name_head hw
          simp at h
          obtain ⟨rfl, rfl⟩ := h
          simp at h'
      · simp at hp
  obtain ⟨rfl, rfl⟩ := q4
  have hc : Step m3 c!"constructor" m5 := by
    cases r5
    cases r4 with
    | cons h t => cases t; exact h
  have e8 := kw_of_step (nt := nt) hS (k := .constructor) hc
  obtain ⟨p, k, hf⟩ := hf
  have : G.constructorInterfaceMember.run leaf nt s = .ok m7 { attributes := as, args := args } :=
    run_bind_ok.2 ⟨_, _, e1, run_bind_ok.2 ⟨_, _, e8, run_bind_ok.2 ⟨_, _, e6,
      run_bind_ok.2 ⟨_, _, e7, rfl⟩⟩⟩⟩
  rw [this] at hf
  cases hf

omit hS hN in
theorem fails_variant {α β : Type} {f : α → β} {g : G α} {s : List σ}
    (h : FailsAt leaf nt (G.variant f g) s) : FailsAt leaf nt g s := by
  rcases run_bind_fails.1 h with h | ⟨_, _, _, h⟩
  · exact h
  · exact absurd h not_fails_pure

theorem snd_attributedType : Snd leaf Step nt G.attributedType attributedType := fun s =>
  .mono (sndAt_attributedType hS hN s) fun _ _ _ h => h.lang

theorem snd_typePair : Snd leaf Step nt G.attributedTypePair typePair := fun _ =>
  .bind (snd_attributedType hS hN _) fun _ _ _ _ h1 => .punctThen hS fun _ _ =>
  .bindPure (.mono (snd_attributedType hS hN _) fun _ _ _ h2 => seq_intro h1 (seq_tok h2))

theorem snd_singleTypedIterable : Snd leaf Step nt G.singleTypedIterable iterableInterfaceMember := fun _ =>
  .bind (snd_attrs hS hN _) fun _ _ _ _ h1 => .kwThen hS fun _ _ =>
    .bind (Snd.generics hS (snd_attributedType hS hN) _) fun _ _ _ _ h2 => .punctEnd hS fun _ _ =>
      seq_intro h1 (seq_tok (seq_intro h2 rfl))

theorem snd_doubleTypedIterable : Snd leaf Step nt G.doubleTypedIterable iterableInterfaceMember := fun _ =>
  .bind (snd_attrs hS hN _) fun _ _ _ _ h1 => .kwThen hS fun _ _ =>
    .bind (Snd.generics hS (snd_typePair hS hN) _) fun _ _ _ _ h2 => .punctEnd hS fun _ _ =>
      seq_intro h1 (seq_tok (seq_intro h2 rfl))

theorem snd_iterable : Snd leaf Step nt G.iterableInterfaceMember iterableInterfaceMember := fun _ =>
  .altsCons (snd_singleTypedIterable hS hN _) fun _ =>
  .altsCons (snd_doubleTypedIterable hS hN _) fun _ =>
  .altsNil

theorem snd_optArgs : Snd leaf Step nt (.opt (G.parenthesized G.argumentList)) optArgumentList :=
  fun _ => .opt (snd_parenArgs hS hN _) fun _ => rfl

theorem snd_singleTypedAsyncIterable : Snd leaf Step nt G.singleTypedAsyncIterable asyncIterableInterfaceMember := fun _ =>
  .bind (snd_attrs hS hN _) fun _ _ _ _ h1 => .kwThen hS fun _ _ => .kwThen hS fun _ _ =>
    .bind (Snd.generics hS (snd_attributedType hS hN) _) fun _ _ _ _ h2 =>
    .bind (snd_optArgs hS hN _) fun _ _ _ _ h3 => .punctEnd hS fun _ _ =>
      seq_intro h1 (seq_tok (seq_tok (seq_intro h2 (seq_intro h3 rfl))))

theorem snd_doubleTypedAsyncIterable : Snd leaf Step nt G.doubleTypedAsyncIterable asyncIterableInterfaceMember := fun _ =>
  .bind (snd_attrs hS hN _) fun _ _ _ _ h1 => .kwThen hS fun _ _ => .kwThen hS fun _ _ =>
    .bind (Snd.generics hS (snd_typePair hS hN) _) fun _ _ _ _ h2 =>
    .bind (snd_optArgs hS hN _) fun _ _ _ _ h3 => .punctEnd hS fun _ _ =>
      seq_intro h1 (seq_tok (seq_tok (seq_intro h2 (seq_intro h3 rfl))))

theorem snd_asyncIterable :
    Snd leaf Step nt G.asyncIterableInterfaceMember asyncIterableInterfaceMember := fun _ =>
  .altsCons (snd_singleTypedAsyncIterable hS hN _) fun _ =>
  .altsCons (snd_doubleTypedAsyncIterable hS hN _) fun _ =>
  .altsNil

theorem snd_maplike : Snd leaf Step nt G.maplikeInterfaceMember maplikeInterfaceMember := fun _ =>
  .bind (snd_attrs hS hN _) fun _ _ _ _ h1 => .bind (Snd.optKw hS _ _) fun _ _ _ _ h2 =>
  .kwThen hS fun _ _ => .bind (Snd.generics hS (snd_typePair hS hN) _) fun _ _ _ _ h3 =>
  .punctEnd hS fun _ _ => seq_intro h1 (seq_intro h2 (seq_tok (seq_intro h3 rfl)))

theorem snd_setlike : Snd leaf Step nt G.setlikeInterfaceMember setlikeInterfaceMember := fun _ =>
  .bind (snd_attrs hS hN _) fun _ _ _ _ h1 => .bind (Snd.optKw hS _ _) fun _ _ _ _ h2 =>
  .kwThen hS fun _ _ => .bind (Snd.generics hS (snd_attributedType hS hN) _) fun _ _ _ _ h3 =>
  .punctEnd hS fun _ _ => seq_intro h1 (seq_intro h2 (seq_tok (seq_intro h3 rfl)))

theorem snd_stringifierMember : Snd leaf Step nt G.stringifierMember stringifierMember := fun _ =>
  .bind (snd_attrs hS hN _) fun _ _ _ _ h1 => .kwThen hS fun _ _ =>
  .punctEnd hS fun _ _ => seq_intro h1 (seq_tok rfl)

theorem snd_interfaceMember : Snd leaf Step nt G.interfaceMember interfaceMember := fun _ =>
  .altsCons (.variant (snd_constMember hS hN _)) fun _ =>
  .altsCons (.variant (snd_attributeInterfaceMember hS hN _)) fun _ =>
  .altsCons (.variant (snd_constructorInterfaceMember hS hN _)) fun h =>
  .altsCons (.variant (sndAt_operationInterfaceMember hS hN (fails_variant h))) fun _ =>
  .altsCons (.variant (snd_iterable hS hN _)) fun _ =>
  .altsCons (.variant (snd_asyncIterable hS hN _)) fun _ =>
  .altsCons (.variant (snd_maplike hS hN _)) fun _ =>
  .altsCons (.variant (snd_setlike hS hN _)) fun _ =>
  .altsCons (.variant (snd_stringifierMember hS hN _)) fun _ =>
  .altsNil

theorem snd_operationMixinMember : Snd leaf Step nt G.operationMixinMember operationMixinMember :=
  fun _ => .bind (snd_attrs hS hN _) fun _ _ _ _ h1 => .bind (sndAt_optKw hS hN _ _)
    fun b l2 m2 r2 h2 => .withReads (.returnNamedThen hS hN
    fun t i l3 _ _ h3 => .bind (snd_parenArgs hS hN _) fun _ _ _ _ h4 => .punctEnd hS fun _ _ hr =>
      seq_intro h1 (optWord_intro h2 hr (seq_intro h3 (seq_intro h4 rfl))))

theorem snd_attributeMixinMember : Snd leaf Step nt G.attributeMixinMember attributeMixinMember :=
  fun _ => .bind (snd_attrs hS hN _) fun _ _ _ _ h1 => .bind (Snd.optKw hS _ _) fun _ _ _ _ h2 =>
  .bind (Snd.optKw hS _ _) fun _ _ _ _ h3 => .kwThen hS fun _ _ =>
  .attributedThen hS hN fun _ _ _ _ _ h4 => .punctEnd hS fun _ _ =>
    seq_intro h1 (seq_intro h2 (seq_intro h3 (seq_tok (seq_intro h4 rfl))))

theorem snd_mixinMember : Snd leaf Step nt G.mixinMember mixinMember := fun _ =>
  .altsCons (.variant (snd_constMember hS hN _)) fun _ =>
  .altsCons (.variant (snd_operationMixinMember hS hN _)) fun _ =>
  .altsCons (.variant (snd_attributeMixinMember hS hN _)) fun _ =>
  .altsCons (.variant (snd_stringifierMember hS hN _)) fun _ =>
  .altsNil

theorem snd_operationNamespaceMember :
    Snd leaf Step nt G.operationNamespaceMember operationNamespaceMember :=
  fun _ => .bind (snd_attrs hS hN _) fun _ _ _ _ h1 => .returnNamedThen hS hN
    fun t i l3 _ _ h3 => .bind (snd_parenArgs hS hN _) fun _ _ _ _ h4 => .punctEnd hS fun _ _ =>
      seq_intro h1 (seq_intro h3 (seq_intro h4 rfl))

theorem snd_attributeNamespaceMember :
    Snd leaf Step nt G.attributeNamespaceMember attributeNamespaceMember :=
  fun _ => .bind (snd_attrs hS hN _) fun _ _ _ _ h1 => .kwThen hS fun _ _ => .kwThen hS fun _ _ =>
  .attributedThen hS hN fun _ _ _ _ _ h4 => .punctEnd hS fun _ _ =>
    seq_intro h1 (seq_tok (seq_tok (seq_intro h4 rfl)))

theorem snd_namespaceMember : Snd leaf Step nt G.namespaceMember namespaceMember := fun _ =>
  .altsCons (.variant (snd_constMember hS hN _)) fun _ =>
  .altsCons (.variant (snd_operationNamespaceMember hS hN _)) fun _ =>
  .altsCons (.variant (snd_attributeNamespaceMember hS hN _)) fun _ =>
  .altsNil

theorem snd_dictionaryMember : Snd leaf Step nt G.dictionaryMember dictionaryMember :=
  fun _ => .bind (snd_attrs hS hN _) fun _ _ _ _ h1 => .bind (sndAt_optKw hS hN _ _)
    fun b l2 m2 r2 h2 => .withReads (.namedThen hS hN (sndAt_type hS hN _)
    fun t i l3 _ _ h3 => .bind (snd_default hS _) fun _ _ _ _ h4 => .punctEnd hS fun _ _ hr =>
      seq_intro h1 (optWord_intro h2 hr (seq_intro h3 (seq_intro h4 rfl))))

theorem snd_inheritance : Snd leaf Step nt (.opt G.inheritance) inheritance := fun _ =>
  .opt (.punctThen hS fun _ _ => .mono (Snd.ident hS _) fun _ _ _ h => seq_tok h) fun _ => rfl

omit hN in
theorem body_intro {α : Type} {L : α → Lang} {ms : List α} {ls : List Str}
    (h : braces (concat (ms.map L)) ls) : body L ms (ls ++ [c!";"]) := seq_intro h rfl

theorem snd_enumValueList : Snd leaf Step nt G.enumValueList enumValues := fun _ =>
  .bind (Snd.separatedNonemptyList (snd_stringLit hS) (Snd.punct hS .comma) _) fun _ _ _ _ h1 =>
  .bindPure (f := fun _ => _) (.opt (.mono (Snd.punct hS .comma _) fun _ _ _ h2 =>
    ⟨h1.1, true, seq_intro h1.2 h2⟩) fun _ => ⟨h1.1, false, seq_intro h1.2 rfl⟩)

/-- The body of a definition, the last thing in it. -/
theorem sndAt_body {α β : Type} {g : G α} {L : α → Lang} {f : List α → β} {s : List σ}
    {N : β → List Str → List σ → Prop} (hg : Snd leaf Step nt g L)
    (h : ∀ ms ls r, body L ms ls → N (f ms) ls r) :
    SndAt leaf Step nt (G.braced (.many0 g) >>= fun ms => G.punct .semiColon >>= fun _ =>
      Pure.pure (f ms)) s N :=
  .bind (Snd.braced hS (Snd.many0 hg) _) fun _ _ _ _ h1 => .punctEnd hS fun _ _ =>
    h _ _ _ (seq_intro h1 rfl)

theorem snd_includes {k : Kw} (hk : k = .includes ∨ k = .implements) {f : Attrs → Str → Str → Definition}
    {s : List σ} (hf : FailsAt leaf nt G.typedefDefinition s) :
    SndAt leaf Step nt (G.attrs >>= fun as => G.ident >>= fun l => G.kw k >>= fun _ =>
      G.ident >>= fun r => G.punct .semiColon >>= fun _ => Pure.pure (f as l r)) s
      (fun d ls _ => ∃ as l r, d = f as l r ∧ (attributes as ⨾ avoiding [[c!"typedef"]] (name l) ⨾
        tok k.text ⨾ name r ⨾ tok c!";") ls) := by
  intro r a e
  obtain ⟨m1, as, e1, e⟩ := run_bind_ok.1 e
  obtain ⟨m2, lhs, e2, e⟩ := run_bind_ok.1 e
  obtain ⟨m3, ⟨⟩, e3, e⟩ := run_bind_ok.1 e
  obtain ⟨m4, rhs, e4, e⟩ := run_bind_ok.1 e
  obtain ⟨m5, ⟨⟩, e5, e⟩ := run_bind_ok.1 e
  rw [run_pure] at e
  simp only [Res.ok.injEq] at e
  obtain ⟨rfl, rfl⟩ := e
  obtain ⟨l1, r1, h1⟩ := snd_attrs hS hN _ _ _ e1
  obtain ⟨w, r2, h2⟩ := hS.ok (l := Leaf.ident) e2
  obtain ⟨_, r3, rfl⟩ := hS.ok (l := Leaf.kw k) e3
  obtain ⟨w', r4, h4⟩ := hS.ok (l := Leaf.ident) e4
  obtain ⟨_, r5, rfl⟩ := hS.ok (l := Leaf.punct _) e5
  have h2' : name lhs [w] := ⟨h2.2, by simpa using h2.1⟩
  have h4' : name rhs [w'] := ⟨h4.2, by simpa using h4.1⟩
  refine ⟨l1 ++ ([w] ++ ([k.text] ++ ([w'] ++ [_]))), r1.append (.cons r2 (.cons r3 (.cons r4
    (.cons r5 .nil)))), as, lhs, rhs, rfl, seq_intro h1 (seq_intro ⟨h2', ?_⟩
      (seq_tok (seq_intro h4' rfl)))⟩
  simp only [List.mem_singleton, forall_eq]
  intro hp
  obtain ⟨_, hp⟩ := hp
  simp only [List.cons_append, List.nil_append, List.cons.injEq] at hp
  obtain rfl := hp.1
  have e6 := kw_of_step (nt := nt) hS (k := .typedef) r2
  have hkn : ∃ i, name i [k.text] := by
    rcases hk with rfl | rfl <;>
      exact ⟨_, name_self (word_iff.2 ⟨_, _, rfl, by decide, by decide⟩)⟩
  obtain ⟨ki, hkn⟩ := hkn
  have pf : ∀ {p : Punct} {i w : Str} {s r : List σ}, name i [w] → Step s w r →
      FailsAt leaf nt (G.punct p) s := by
    intro p i w s r hn hs
    rcases hS.exact hn hs (.punct p) with ⟨v, rfl, -⟩ | ⟨-, h⟩
    · obtain ⟨c, v, h, h'⟩ := name_head hn
      cases p <;> simp [Punct.text] at h <;> obtain ⟨rfl, rfl⟩ := h <;> simp at h'
    · exact h
  have hid : OkAt leaf nt G.ident m2 m3 ki := by
    rcases hS.exact hkn r3 .ident with ⟨v, h, h'⟩ | ⟨h, -⟩
    · have : v = ki := by
        have a := h.1; have b := hkn.2; have c := (word_iff.1 h.2); have d := word_iff.1 hkn.1
        obtain ⟨c1, v1, rfl, c2, -⟩ := c
        obtain ⟨d1, u1, rfl, d2, -⟩ := d
        simp at b
        rcases a with a | a <;> rcases b with b | b <;> rw [a] at b <;> simp at b
        · simp [b]
        · obtain ⟨rfl, -⟩ := b; simp at c2
        · obtain ⟨rfl, -⟩ := b; simp at d2
        · simp [b]
      exact this ▸ h'
    · exact absurd ⟨by simpa using hkn.2, hkn.1⟩ (h ki)
  have ht : OkAt leaf nt G.type m2 m3 (.single (.nonAny (.identifier ki false))) := by
    refine .typeWord ?_ hid (.optPunctF (pf h4' r4))
    intro k' hk'
    refine kw_other hS hkn r3 ?_
    revert k'
    rcases hk with rfl | rfl <;> decide
  have hat : OkAt leaf nt G.attributedType m2 m3 (.mk none (.single (.nonAny (.identifier ki false)))) :=
    .bind (.none (.left (pf hkn r3))) (.bind ht .pure)
  exact hf.not_ok (.bind e1 (.bind e6 (.bind hat (.bind e4 (.bind e5 .pure)))))

theorem snd_callbackDef : Snd leaf Step nt G.callbackDefinition definition := fun _ =>
  .bind (snd_attrs hS hN _) fun _ _ _ _ h1 => .kwThen hS fun _ _ =>
    .bind (Snd.ident hS _) fun _ _ _ _ h2 => .punctThen hS fun _ _ =>
    .bind (snd_returnType hS hN _) fun _ _ _ _ h3 => .bind (snd_parenArgs hS hN _) fun _ _ _ _ h4 =>
    .punctEnd hS fun _ _ => seq_intro h1 (seq_tok (seq_intro h2 (seq_tok (seq_intro h3
      (seq_intro h4 rfl)))))

theorem snd_callbackInterfaceDef : Snd leaf Step nt G.callbackInterfaceDefinition definition := fun _ =>
  .bind (snd_attrs hS hN _) fun _ _ _ _ h1 => .kwThen hS fun _ _ => .kwThen hS fun _ _ =>
    .bind (Snd.ident hS _) fun _ _ _ _ h2 => .bind (snd_inheritance hS hN _) fun _ _ _ _ h3 =>
    sndAt_body hS hN (snd_interfaceMember hS hN) fun _ _ _ h4 =>
      seq_intro h1 (seq_tok (seq_tok (seq_intro h2 (seq_intro h3 h4))))

theorem snd_interfaceDef : Snd leaf Step nt G.interfaceDefinition definition := fun _ =>
  .bind (snd_attrs hS hN _) fun _ _ _ _ h1 => .kwThen hS fun _ _ =>
    .bind (Snd.ident hS _) fun _ _ _ _ h2 => .bind (snd_inheritance hS hN _) fun _ _ _ _ h3 =>
    sndAt_body hS hN (snd_interfaceMember hS hN) fun _ _ _ h4 =>
      seq_intro h1 (seq_tok (seq_intro h2 (seq_intro h3 h4)))

theorem snd_interfaceMixinDef : Snd leaf Step nt G.interfaceMixinDefinition definition := fun _ =>
  .bind (snd_attrs hS hN _) fun _ _ _ _ h1 => .kwThen hS fun _ _ => .kwThen hS fun _ _ =>
    .bind (Snd.ident hS _) fun _ _ _ _ h2 =>
    sndAt_body hS hN (snd_mixinMember hS hN) fun _ _ _ h4 =>
      seq_intro h1 (seq_tok (seq_tok (seq_intro h2 h4)))

theorem snd_namespaceDef : Snd leaf Step nt G.namespaceDefinition definition := fun _ =>
  .bind (snd_attrs hS hN _) fun _ _ _ _ h1 => .kwThen hS fun _ _ =>
    .bind (Snd.ident hS _) fun _ _ _ _ h2 =>
    sndAt_body hS hN (snd_namespaceMember hS hN) fun _ _ _ h4 =>
      seq_intro h1 (seq_tok (seq_intro h2 h4))

theorem snd_dictionaryDef : Snd leaf Step nt G.dictionaryDefinition definition := fun _ =>
  .bind (snd_attrs hS hN _) fun _ _ _ _ h1 => .kwThen hS fun _ _ =>
    .bind (Snd.ident hS _) fun _ _ _ _ h2 => .bind (snd_inheritance hS hN _) fun _ _ _ _ h3 =>
    sndAt_body hS hN (snd_dictionaryMember hS hN) fun _ _ _ h4 =>
      seq_intro h1 (seq_tok (seq_intro h2 (seq_intro h3 h4)))

theorem snd_partialInterfaceDef : Snd leaf Step nt G.partialInterfaceDefinition definition := fun _ =>
  .bind (snd_attrs hS hN _) fun _ _ _ _ h1 => .kwThen hS fun _ _ => .kwThen hS fun _ _ =>
    .bind (Snd.ident hS _) fun _ _ _ _ h2 =>
    sndAt_body hS hN (snd_interfaceMember hS hN) fun _ _ _ h4 =>
      seq_intro h1 (seq_tok (seq_tok (seq_intro h2 h4)))

theorem snd_partialInterfaceMixinDef : Snd leaf Step nt G.partialInterfaceMixinDefinition definition := fun _ =>
  .bind (snd_attrs hS hN _) fun _ _ _ _ h1 => .kwThen hS fun _ _ => .kwThen hS fun _ _ =>
    .kwThen hS fun _ _ => .bind (Snd.ident hS _) fun _ _ _ _ h2 =>
    sndAt_body hS hN (snd_mixinMember hS hN) fun _ _ _ h4 =>
      seq_intro h1 (seq_tok (seq_tok (seq_tok (seq_intro h2 h4))))

theorem snd_partialDictionaryDef : Snd leaf Step nt G.partialDictionaryDefinition definition := fun _ =>
  .bind (snd_attrs hS hN _) fun _ _ _ _ h1 => .kwThen hS fun _ _ => .kwThen hS fun _ _ =>
    .bind (Snd.ident hS _) fun _ _ _ _ h2 =>
    sndAt_body hS hN (snd_dictionaryMember hS hN) fun _ _ _ h4 =>
      seq_intro h1 (seq_tok (seq_tok (seq_intro h2 h4)))

theorem snd_partialNamespaceDef : Snd leaf Step nt G.partialNamespaceDefinition definition := fun _ =>
  .bind (snd_attrs hS hN _) fun _ _ _ _ h1 => .kwThen hS fun _ _ => .kwThen hS fun _ _ =>
    .bind (Snd.ident hS _) fun _ _ _ _ h2 =>
    sndAt_body hS hN (snd_namespaceMember hS hN) fun _ _ _ h4 =>
      seq_intro h1 (seq_tok (seq_tok (seq_intro h2 h4)))

theorem snd_enumDef : Snd leaf Step nt G.enumDefinition definition := fun _ =>
  .bind (snd_attrs hS hN _) fun _ _ _ _ h1 => .kwThen hS fun _ _ =>
    .bind (Snd.ident hS _) fun _ _ _ _ h2 =>
    .bind (Snd.braced hS (snd_enumValueList hS hN) _) fun _ _ _ _ h3 => .punctEnd hS fun _ _ =>
      seq_intro h1 (seq_tok (seq_intro h2 (seq_intro h3 rfl)))

theorem snd_typedefDef : Snd leaf Step nt G.typedefDefinition definition := fun _ =>
  .bind (snd_attrs hS hN _) fun _ _ _ _ h1 => .kwThen hS fun _ _ =>
    .attributedThen hS hN fun _ _ _ _ _ h2 => .punctEnd hS fun _ _ =>
      seq_intro h1 (seq_tok (seq_intro h2 rfl))

theorem snd_definition : Snd leaf Step nt G.definition definition := fun _ =>
  .altsCons (snd_callbackDef hS hN _) fun _ =>
  .altsCons (snd_callbackInterfaceDef hS hN _) fun _ =>
  .altsCons (snd_interfaceDef hS hN _) fun _ =>
  .altsCons (snd_interfaceMixinDef hS hN _) fun _ =>
  .altsCons (snd_namespaceDef hS hN _) fun _ =>
  .altsCons (snd_dictionaryDef hS hN _) fun _ =>
  .altsCons (snd_partialInterfaceDef hS hN _) fun _ =>
  .altsCons (snd_partialInterfaceMixinDef hS hN _) fun _ =>
  .altsCons (snd_partialDictionaryDef hS hN _) fun _ =>
  .altsCons (snd_partialNamespaceDef hS hN _) fun _ =>
  .altsCons (snd_enumDef hS hN _) fun _ =>
  .altsCons (snd_typedefDef hS hN _) fun hf =>
  .altsCons (.mono (snd_includes hS hN (.inl rfl) (f := .includesStatement) hf)
    fun _ _ _ h => by obtain ⟨as, l, r, rfl, h⟩ := h; exact h) fun _ =>
  .altsCons (.mono (snd_includes hS hN (.inr rfl) (f := .implements) hf)
    fun _ _ _ h => by obtain ⟨as, l, r, rfl, h⟩ := h; exact h) fun _ =>
  .altsNil

theorem snd_definitions : Snd leaf Step nt G.definitions definitions :=
  Snd.many0 (snd_definition hS hN)

end
end Verif
