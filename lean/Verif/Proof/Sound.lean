import Verif.Spec.Grammar
import Verif.Spec.Repetition
import Verif.Proof.Leaf

/-!
# Soundness: rules

What a successful run has read, lexeme by lexeme. The rules are for an abstract notion of reading
one lexeme, so that they apply to runs on characters and to runs on lexemes.
-/

namespace Verif
open Nom Spec

variable {σ α β : Type} [DecidableEq σ]

/-- `Step s w r`: the lexeme `w` can be read at `s`, leaving `r`. On a word, the leaves are
exact: each reads the whole word or fails. -/
structure Stepping (leaf : ∀ α, Leaf α → P σ α) (Step : List σ → Str → List σ → Prop) : Prop where
  ok : ∀ {α l s r v}, leaf α l s = .ok r v → ∃ w, Step s w r ∧ LeafText l w v
  kwNo : ∀ {k s}, Fails (leaf Unit (.kw k)) s → ∀ r, ¬ Step s k.text r
  punctNo : ∀ {p s}, Fails (leaf Unit (.punct p)) s → ∀ r, ¬ Step s p.text r
  det : ∀ {s w r r'}, Step s w r → Step s w r' → r = r'
  exact : ∀ {s w r i}, name i [w] → Step s w r → ∀ {α} (l : Leaf α),
    (∃ v, LeafText l w v ∧ leaf α l s = .ok r v) ∨ ((∀ v, ¬ LeafText l w v) ∧ Fails (leaf α l) s)
  total : ∀ α l s, (∃ r v, leaf α l s = .ok r v) ∨ Fails (leaf α l) s

/-- Reading several lexemes. -/
inductive Reads (Step : List σ → Str → List σ → Prop) : List σ → List Str → List σ → Prop where
  | nil {s : List σ} : Reads Step s [] s
  | cons {s m r : List σ} {w : Str} {ls : List Str} (h : Step s w m) (t : Reads Step m ls r) :
      Reads Step s (w :: ls) r

variable {leaf : ∀ α, Leaf α → P σ α} {Step : List σ → Str → List σ → Prop}
  {nt : ∀ α, NT α → P σ α}

omit [DecidableEq σ] in
theorem Reads.append {s m r : List σ} {ls ls' : List Str} (h : Reads Step s ls m)
    (h' : Reads Step m ls' r) : Reads Step s (ls ++ ls') r := by
  induction h with
  | nil => exact h'
  | cons h _ ih => exact .cons h (ih h')

omit [DecidableEq σ] in
theorem Reads.one {s r : List σ} {w : Str} (h : Step s w r) : Reads Step s [w] r := .cons h .nil

variable (leaf Step nt) in
/-- Every success of `g` at `s` has read some lexemes satisfying `N`. -/
def SndAt (g : G α) (s : List σ) (N : α → List Str → List σ → Prop) : Prop :=
  ∀ r a, g.run leaf nt s = .ok r a → ∃ ls, Reads Step s ls r ∧ N a ls r

variable (leaf nt) in
abbrev FailsAt (g : G α) (s : List σ) : Prop := Fails (g.run leaf nt) s

variable (Step) in
/-- The next lexeme is not `w`. -/
def NotNext (s : List σ) (w : Str) : Prop := ∀ r, ¬ Step s w r

variable {N : α → List Str → List σ → Prop} {s : List σ}

theorem SndAt.mono {g : G α} {N' : α → List Str → List σ → Prop}
    (h : SndAt leaf Step nt g s N') (hi : ∀ a ls r, N' a ls r → N a ls r) :
    SndAt leaf Step nt g s N := by
  intro r a e
  obtain ⟨ls, h1, h2⟩ := h r a e
  exact ⟨ls, h1, hi _ _ _ h2⟩

theorem SndAt.pure {a : α} (h : N a [] s) : SndAt leaf Step nt (Pure.pure a : G α) s N := by
  intro r a' e
  simp only [Pure.pure, G.run, Nom.ret, Res.ok.injEq] at e
  obtain ⟨rfl, rfl⟩ := e
  exact ⟨[], .nil, h⟩

theorem run_bind {g : G α} {f : α → G β} {s : List σ} :
    (g >>= f).run leaf nt s = match g.run leaf nt s with
      | .ok m a => (f a).run leaf nt m
      | .err e => .err e
      | .diverge => .diverge := rfl

theorem run_bind_ok {g : G α} {f : α → G β} {s r : List σ} {b : β} :
    (g >>= f).run leaf nt s = .ok r b ↔
      ∃ m a, g.run leaf nt s = .ok m a ∧ (f a).run leaf nt m = .ok r b := by
  rw [run_bind]
  cases g.run leaf nt s <;> simp
  exact ⟨fun h => ⟨_, _, ⟨rfl, rfl⟩, h⟩, by rintro ⟨_, _, ⟨rfl, rfl⟩, h⟩; exact h⟩

theorem run_bind_fails {g : G α} {f : α → G β} {s : List σ} :
    FailsAt leaf nt (g >>= f) s ↔
      FailsAt leaf nt g s ∨ ∃ m a, g.run leaf nt s = .ok m a ∧ FailsAt leaf nt (f a) m := by
  simp only [FailsAt, Fails]
  rw [run_bind]
  cases g.run leaf nt s <;> simp
  exact ⟨fun h => ⟨_, _, ⟨rfl, rfl⟩, h⟩, by rintro ⟨_, _, ⟨rfl, rfl⟩, h⟩; exact h⟩

theorem run_pure {a : α} {s : List σ} : (Pure.pure a : G α).run leaf nt s = .ok s a := rfl

theorem not_fails_pure {a : α} {s : List σ} : ¬ FailsAt leaf nt (Pure.pure a : G α) s := by
  rintro ⟨p, k, h⟩; rw [run_pure] at h; cases h

theorem SndAt.bind {g : G α} {f : α → G β} {N : β → List Str → List σ → Prop}
    {N1 : α → List Str → List σ → Prop} (h1 : SndAt leaf Step nt g s N1)
    (h2 : ∀ a ls m, Reads Step s ls m → N1 a ls m →
      SndAt leaf Step nt (f a) m (fun b ls' r => N b (ls ++ ls') r)) :
    SndAt leaf Step nt (g >>= f) s N := by
  intro r b e
  obtain ⟨m, a, e1, e2⟩ := run_bind_ok.1 e
  obtain ⟨ls, h3, h4⟩ := h1 m a e1
  obtain ⟨ls', h5, h6⟩ := h2 a ls m h3 h4 r b e2
  exact ⟨ls ++ ls', h3.append h5, h6⟩

/-- The last field. -/
theorem SndAt.bindPure {g : G α} {f : α → β} {N : β → List Str → List σ → Prop}
    (h1 : SndAt leaf Step nt g s (fun a ls r => N (f a) ls r)) :
    SndAt leaf Step nt (g >>= fun a => Pure.pure (f a)) s N := by
  intro r b e
  obtain ⟨m, a, e1, e2⟩ := run_bind_ok.1 e
  rw [run_pure] at e2
  simp only [Res.ok.injEq] at e2
  obtain ⟨rfl, rfl⟩ := e2
  exact h1 _ a e1

theorem SndAt.variant {g : G α} {f : α → β} {N : β → List Str → List σ → Prop}
    (h1 : SndAt leaf Step nt g s (fun a ls r => N (f a) ls r)) :
    SndAt leaf Step nt (G.variant f g) s N := SndAt.bindPure h1

theorem SndAt.ofLeaf (hS : Stepping leaf Step) {l : Leaf α}
    (h : ∀ w m v, Step s w m → LeafText l w v → N v [w] m) :
    SndAt leaf Step nt (.leaf l) s N := by
  intro r a e
  obtain ⟨w, h1, h2⟩ := hS.ok e
  exact ⟨[w], .one h1, h w r a h1 h2⟩

theorem SndAt.kw (hS : Stepping leaf Step) {k : Kw} {N : Unit → List Str → List σ → Prop}
    (h : ∀ m, Step s k.text m → N () [k.text] m) : SndAt leaf Step nt (G.kw k) s N :=
  .ofLeaf hS (by rintro w m ⟨⟩ h1 rfl; exact h m h1)

theorem SndAt.punct (hS : Stepping leaf Step) {p : Punct} {N : Unit → List Str → List σ → Prop}
    (h : ∀ m, Step s p.text m → N () [p.text] m) : SndAt leaf Step nt (G.punct p) s N :=
  .ofLeaf hS (by rintro w m ⟨⟩ h1 rfl; exact h m h1)

theorem SndAt.ident (hS : Stepping leaf Step) {N : Str → List Str → List σ → Prop}
    (h : ∀ w m i, Step s w m → name i [w] → N i [w] m) : SndAt leaf Step nt G.ident s N :=
  .ofLeaf hS (by
    rintro w m i h1 ⟨h2, h3⟩
    exact h w m i h1 ⟨h3, by simpa using h2⟩)

/-- A fixed terminal, then the rest. -/
theorem SndAt.kwThen (hS : Stepping leaf Step) {k : Kw} {f : Unit → G β}
    {N : β → List Str → List σ → Prop}
    (h : ∀ m, Step s k.text m →
      SndAt leaf Step nt (f ()) m (fun b ls r => N b ([k.text] ++ ls) r)) :
    SndAt leaf Step nt (G.kw k >>= f) s N :=
  .bind (.kw hS (N := fun _ ls m => ls = [k.text] ∧ Step s k.text m) fun m hm => ⟨rfl, hm⟩)
    (by rintro ⟨⟩ ls m _ ⟨rfl, h1⟩; exact h m h1)

theorem SndAt.punctThen (hS : Stepping leaf Step) {p : Punct} {f : Unit → G β}
    {N : β → List Str → List σ → Prop}
    (h : ∀ m, Step s p.text m →
      SndAt leaf Step nt (f ()) m (fun b ls r => N b ([p.text] ++ ls) r)) :
    SndAt leaf Step nt (G.punct p >>= f) s N :=
  .bind (.punct hS (N := fun _ ls m => ls = [p.text] ∧ Step s p.text m) fun m hm => ⟨rfl, hm⟩)
    (by rintro ⟨⟩ ls m _ ⟨rfl, h1⟩; exact h m h1)

theorem SndAt.identThen (hS : Stepping leaf Step) {f : Str → G β}
    {N : β → List Str → List σ → Prop}
    (h : ∀ w m i, Step s w m → name i [w] →
      SndAt leaf Step nt (f i) m (fun b ls r => N b ([w] ++ ls) r)) :
    SndAt leaf Step nt (G.ident >>= f) s N := by
  intro r b e
  obtain ⟨m, i, e1, e2⟩ := run_bind_ok.1 e
  obtain ⟨w, h1, h2, h3⟩ := hS.ok (l := Leaf.ident) e1
  obtain ⟨ls, h4, h5⟩ := h w m i h1 ⟨h3, by simpa using h2⟩ r b e2
  exact ⟨[w] ++ ls, (Reads.one h1).append h4, h5⟩

/-- The last terminal. -/
theorem SndAt.punctEnd (hS : Stepping leaf Step) {p : Punct} {b : β}
    {N : β → List Str → List σ → Prop} (h : ∀ m, Step s p.text m → N b [p.text] m) :
    SndAt leaf Step nt (G.punct p >>= fun _ => Pure.pure b) s N :=
  .bindPure (.punct hS h)

theorem SndAt.orElse {g h : G α} (h1 : SndAt leaf Step nt g s N)
    (h2 : FailsAt leaf nt g s → SndAt leaf Step nt h s N) :
    SndAt leaf Step nt (.orElse g h) s N := by
  intro r a e
  simp only [G.run, Nom.orElse] at e
  split at e
  · next p k e' => exact h2 ⟨p, k, e'⟩ r a e
  · exact h1 r a e

theorem SndAt.altEnd : SndAt leaf Step nt (.altEnd : G α) s N := by
  intro r a e
  simp [G.run, Nom.altEnd] at e

theorem SndAt.altsNil : SndAt leaf Step nt (G.alts [] : G α) s N := SndAt.altEnd

theorem SndAt.altsCons {g : G α} {gs : List (G α)} (h1 : SndAt leaf Step nt g s N)
    (h2 : FailsAt leaf nt g s → SndAt leaf Step nt (G.alts gs) s N) :
    SndAt leaf Step nt (G.alts (g :: gs)) s N := SndAt.orElse h1 h2

theorem SndAt.opt {g : G α} {N : Option α → List Str → List σ → Prop}
    (h1 : SndAt leaf Step nt g s (fun a ls r => N (some a) ls r))
    (h2 : FailsAt leaf nt g s → N none [] s) : SndAt leaf Step nt (.opt g) s N := by
  intro r a e
  simp only [G.run, Nom.opt] at e
  split at e <;> simp at e
  · next m a' e' =>
    obtain ⟨rfl, rfl⟩ := e
    exact h1 _ _ e'
  · next p k e' =>
    obtain ⟨rfl, rfl⟩ := e
    exact ⟨[], .nil, h2 ⟨p, k, e'⟩⟩

theorem fails_kw (hS : Stepping leaf Step) {k : Kw} (h : FailsAt leaf nt (G.kw k) s) :
    NotNext Step s k.text := hS.kwNo h

theorem fails_punct (hS : Stepping leaf Step) {p : Punct} (h : FailsAt leaf nt (G.punct p) s) :
    NotNext Step s p.text := hS.punctNo h

theorem fails_kwAs (hS : Stepping leaf Step) {k : Kw} {a : α}
    (h : FailsAt leaf nt (G.kwAs k a) s) : NotNext Step s k.text := by
  rcases run_bind_fails.1 h with h | ⟨m, _, _, h⟩
  · exact fails_kw hS h
  · exact absurd h not_fails_pure

theorem SndAt.kwAs (hS : Stepping leaf Step) {k : Kw} {a : α}
    (h : ∀ m, Step s k.text m → N a [k.text] m) : SndAt leaf Step nt (G.kwAs k a) s N :=
  .bindPure (.kw hS h)

theorem SndAt.optKw (hS : Stepping leaf Step) {k : Kw} {N : Bool → List Str → List σ → Prop}
    (h1 : ∀ m, Step s k.text m → N true [k.text] m) (h2 : NotNext Step s k.text → N false [] s) :
    SndAt leaf Step nt (G.optKw k) s N :=
  .bindPure (.opt (.kw hS h1) fun h => h2 (fails_kw hS h))

theorem SndAt.optPunct (hS : Stepping leaf Step) {p : Punct}
    {N : Bool → List Str → List σ → Prop}
    (h1 : ∀ m, Step s p.text m → N true [p.text] m) (h2 : NotNext Step s p.text → N false [] s) :
    SndAt leaf Step nt (G.optPunct p) s N :=
  .bindPure (.opt (.punct hS h1) fun h => h2 (fails_punct hS h))

omit [DecidableEq σ] in
theorem Reads.not_prefix {s r : List σ} {ls : List Str} {w : Str} (h : Reads Step s ls r)
    (hn : NotNext Step s w) : ¬ [w] <+: ls := by
  rintro ⟨t, rfl⟩
  cases h with
  | cons h _ => exact hn _ h

/-! ## Repetitions -/

theorem many0Loop_chain {p : P σ α} {n : Nat} {s r : List σ} {as : List α}
    (h : many0Loop p n s = .ok r as) : Chain p s as r := by
  induction n generalizing s as with
  | zero => simp [many0Loop] at h
  | succ n ih =>
    simp only [many0Loop] at h
    split at h <;> try (simp at h)
    · obtain ⟨rfl, rfl⟩ := h; exact .nil
    · next i a e =>
      split at h <;> try (simp at h)
      next h0 =>
      cases h' : many0Loop p n i with
      | ok r' as' =>
        rw [h'] at h; simp [consRes] at h
        obtain ⟨rfl, rfl⟩ := h
        exact .cons e h0 (ih h')
      | err e => rw [h'] at h; simp [consRes] at h
      | diverge => rw [h'] at h; simp [consRes] at h

theorem sepLoop_chain {p : P σ α} {sep : P σ β} {n : Nat} {s r : List σ} {as : List α}
    (h : sepLoop sep p n s = .ok r as) : SepChain sep p s as r := by
  induction n generalizing s as with
  | zero => simp [sepLoop] at h
  | succ n ih =>
    simp only [sepLoop] at h
    split at h <;> try (simp at h)
    · obtain ⟨rfl, rfl⟩ := h; exact .nil
    · next i a e =>
      split at h <;> try (simp at h)
      next h0 =>
      split at h <;> try (simp at h)
      · obtain ⟨rfl, rfl⟩ := h; exact .nil
      · next i2 a2 e2 =>
        split at h <;> try (simp at h)
        cases h' : sepLoop sep p n i2 with
        | ok r' as' =>
          rw [h'] at h; simp [consRes] at h
          obtain ⟨rfl, rfl⟩ := h
          exact .cons e h0 e2 (ih h')
        | err e => rw [h'] at h; simp [consRes] at h
        | diverge => rw [h'] at h; simp [consRes] at h

variable (leaf Step nt) in
/-- Every success of `g` has read a spelling of its result. -/
def Snd (g : G α) (L : α → Lang) : Prop := ∀ s, SndAt leaf Step nt g s (fun a ls _ => L a ls)

theorem chain_reads {g : G α} {L : α → Lang} (hg : Snd leaf Step nt g L) {s r : List σ}
    {as : List α} (h : Chain (g.run leaf nt) s as r) :
    ∃ ls, Reads Step s ls r ∧ concat (as.map L) ls := by
  induction h with
  | nil => exact ⟨[], .nil, rfl⟩
  | cons h _ _ ih =>
    obtain ⟨ls, h1, h2⟩ := hg _ _ _ h
    obtain ⟨ls', h3, h4⟩ := ih
    exact ⟨ls ++ ls', h1.append h3, ls, ls', rfl, h2, h4⟩

theorem Snd.many0 {g : G α} {L : α → Lang} (hg : Snd leaf Step nt g L) :
    Snd leaf Step nt (.many0 g) (fun as => concat (as.map L)) := by
  intro s r as h
  exact chain_reads hg (many0Loop_chain h)

theorem sepChain_reads {g : G α} {sep : G β} {L : α → Lang} {w : Str}
    (hg : Snd leaf Step nt g L) (hs : Snd leaf Step nt sep (fun _ => tok w)) {s r : List σ}
    {as : List α} (h : SepChain (sep.run leaf nt) (g.run leaf nt) s as r) :
    ∃ ls, Reads Step s ls r ∧
      ∀ A l0, A l0 → sepBy (tok w) (A :: as.map L) (l0 ++ ls) := by
  induction h with
  | nil => exact ⟨[], .nil, by intro A l0 h; simpa [sepBy] using h⟩
  | cons h1 _ h2 _ ih =>
    obtain ⟨_, h3, rfl⟩ := hs _ _ _ h1
    obtain ⟨ls, h4, h5⟩ := hg _ _ _ h2
    obtain ⟨ls', h6, h7⟩ := ih
    exact ⟨[w] ++ (ls ++ ls'), h3.append (h4.append h6), fun A l0 hA =>
      ⟨l0, _, rfl, hA, [w], _, rfl, rfl, h7 _ _ h5⟩⟩

omit [DecidableEq σ] in
theorem consRes_ok {a : α} {x : Res σ (List α)} {r : List σ} {as : List α} :
    consRes a x = .ok r as ↔ ∃ as', x = .ok r as' ∧ as = a :: as' := by
  cases x <;> simp [consRes]
  constructor
  · rintro ⟨rfl, rfl⟩; exact ⟨_, ⟨rfl, rfl⟩, rfl⟩
  · rintro ⟨_, ⟨rfl, rfl⟩, rfl⟩; exact ⟨rfl, rfl⟩

theorem Snd.separatedList {g : G α} {sep : G β} {L : α → Lang} {w : Str}
    (hg : Snd leaf Step nt g L) (hs : Snd leaf Step nt sep (fun _ => tok w)) :
    Snd leaf Step nt (.separatedList sep g) (fun as => sepBy (tok w) (as.map L)) := by
  intro s r as h
  simp only [G.run, Nom.separatedList] at h
  split at h <;> try (simp at h)
  · obtain ⟨rfl, rfl⟩ := h; exact ⟨[], .nil, rfl⟩
  · next m a e =>
    split at h <;> try (simp at h)
    obtain ⟨as', h', rfl⟩ := consRes_ok.1 h
    obtain ⟨ls, h1, h2⟩ := hg _ _ _ e
    obtain ⟨ls', h3, h4⟩ := sepChain_reads hg hs (sepLoop_chain h')
    exact ⟨_, h1.append h3, h4 _ _ h2⟩

theorem Snd.separatedNonemptyList {g : G α} {sep : G β} {L : α → Lang} {w : Str}
    (hg : Snd leaf Step nt g L) (hs : Snd leaf Step nt sep (fun _ => tok w)) :
    Snd leaf Step nt (.separatedNonemptyList sep g)
      (fun as ls => as ≠ [] ∧ sepBy (tok w) (as.map L) ls) := by
  intro s r as h
  simp only [G.run, Nom.separatedNonemptyList] at h
  split at h <;> try (simp at h)
  next m a e =>
    split at h <;> try (simp at h)
    obtain ⟨as', h', rfl⟩ := consRes_ok.1 h
    obtain ⟨ls, h1, h2⟩ := hg _ _ _ e
    obtain ⟨ls', h3, h4⟩ := sepChain_reads hg hs (sepLoop_chain h')
    exact ⟨_, h1.append h3, by simp, h4 _ _ h2⟩

theorem SndAt.withReads {g : G α}
    (h : SndAt leaf Step nt g s (fun a ls r => Reads Step s ls r → N a ls r)) :
    SndAt leaf Step nt g s N := by
  intro r a e
  obtain ⟨ls, h1, h2⟩ := h r a e
  exact ⟨ls, h1, h2 h1⟩

theorem Snd.kw (hS : Stepping leaf Step) (k : Kw) :
    Snd leaf Step nt (G.kw k) (fun _ => tok k.text) := fun _ => .kw hS fun _ _ => rfl

theorem Snd.punct (hS : Stepping leaf Step) (p : Punct) :
    Snd leaf Step nt (G.punct p) (fun _ => tok p.text) := fun _ => .punct hS fun _ _ => rfl

theorem Snd.ident (hS : Stepping leaf Step) : Snd leaf Step nt G.ident name :=
  fun _ => .ident hS fun _ _ _ _ h => h

theorem Snd.optKw (hS : Stepping leaf Step) (k : Kw) :
    Snd leaf Step nt (G.optKw k) (fun b => optTok b k.text) :=
  fun _ => .optKw hS (fun _ _ => rfl) fun _ => rfl

theorem Snd.optPunct (hS : Stepping leaf Step) (p : Punct) :
    Snd leaf Step nt (G.optPunct p) (fun b => optTok b p.text) :=
  fun _ => .optPunct hS (fun _ _ => rfl) fun _ => rfl

theorem Snd.parenthesized (hS : Stepping leaf Step) {g : G α} {L : α → Lang}
    (hg : Snd leaf Step nt g L) :
    Snd leaf Step nt (G.parenthesized g) (fun a => parens (L a)) := fun _ =>
  .punctThen hS fun _ _ => .bind (hg _) fun _ _ _ _ h => .punctEnd hS fun _ _ =>
    ⟨_, _, rfl, rfl, _, _, rfl, h, rfl⟩

theorem Snd.bracketed (hS : Stepping leaf Step) {g : G α} {L : α → Lang}
    (hg : Snd leaf Step nt g L) :
    Snd leaf Step nt (G.bracketed g) (fun a => brackets (L a)) := fun _ =>
  .punctThen hS fun _ _ => .bind (hg _) fun _ _ _ _ h => .punctEnd hS fun _ _ =>
    ⟨_, _, rfl, rfl, _, _, rfl, h, rfl⟩

theorem Snd.braced (hS : Stepping leaf Step) {g : G α} {L : α → Lang}
    (hg : Snd leaf Step nt g L) :
    Snd leaf Step nt (G.braced g) (fun a => braces (L a)) := fun _ =>
  .punctThen hS fun _ _ => .bind (hg _) fun _ _ _ _ h => .punctEnd hS fun _ _ =>
    ⟨_, _, rfl, rfl, _, _, rfl, h, rfl⟩

theorem Snd.generics (hS : Stepping leaf Step) {g : G α} {L : α → Lang}
    (hg : Snd leaf Step nt g L) :
    Snd leaf Step nt (G.generics g) (fun a => angles (L a)) := fun _ =>
  .punctThen hS fun _ _ => .bind (hg _) fun _ _ _ _ h => .punctEnd hS fun _ _ =>
    ⟨_, _, rfl, rfl, _, _, rfl, h, rfl⟩

theorem Snd.commaList (hS : Stepping leaf Step) {g : G α} {L : α → Lang}
    (hg : Snd leaf Step nt g L) :
    Snd leaf Step nt (G.commaList g) (fun as => sepBy comma (as.map L)) :=
  .separatedList hg (.punct hS _)

end Verif
