import Verif.Spec.Recode
import Verif.Spec.Lexical
import Verif.Proof.Sim
import Verif.Proof.Trivia
import Verif.Source.ConvLeaf

/-! # Parsing a text that is written in another way -/

namespace Verif.Recodes
open Nom Spec Source

variable {f : Char → Str}

def White (c : Char) : Prop := c ∈ c!" \t\r\n"
def Plain (c : Char) : Prop := c.toNat < 128 ∧ ¬ White c

theorem white_ascii {c : Char} (h : White c) : c.toNat < 128 := by
  simp [White] at h
  rcases h with rfl | rfl | rfl | rfl <;> decide

theorem ne_nil (hf : Recoding f) (c : Char) : f c ≠ [] := by
  by_cases h : c.toNat < 128
  · by_cases hw : White c
    · by_cases e : c = '\n'
      · subst e
        exact List.ne_nil_of_mem hf.line.1
      · exact (hf.blank c (by simp [White] at hw ⊢; grind)).1
    · rw [hf.ascii c h hw]; simp
  · exact (hf.other c (by omega)).1

theorem image (hf : Recoding f) {c d : Char} (h : d ∈ f c) :
    (Plain c ∧ d = c) ∨ (White c ∧ White d) ∨ (128 ≤ c.toNat ∧ 128 ≤ d.toNat) := by
  by_cases ha : c.toNat < 128
  · by_cases hw : White c
    · by_cases e : c = '\n'
      · subst e
        exact .inr (.inl ⟨hw, hf.line.2 d h⟩)
      · have := (hf.blank c (by simp [White] at hw ⊢; grind)).2 d h
        exact .inr (.inl ⟨hw, by simp [White] at this ⊢; grind⟩)
    · rw [hf.ascii c ha hw] at h
      exact .inl ⟨⟨ha, hw⟩, by simpa using h⟩
  · exact .inr (.inr ⟨by omega, (hf.other c (by omega)).2 d h⟩)

theorem mem_plain (hf : Recoding f) {c d : Char} (hd : Plain d) (h : d ∈ f c) : c = d := by
  rcases image hf h with ⟨-, e⟩ | ⟨-, h'⟩ | ⟨-, h'⟩
  · exact e.symm
  · exact absurd h' hd.2
  · have := hd.1; omega

theorem plain_eq (hf : Recoding f) {c : Char} (h : Plain c) : f c = [c] := hf.ascii c h.1 h.2

theorem mem_line (hf : Recoding f) {c : Char} (h : '\n' ∈ f c) : c = '\n' := by
  by_cases ha : c.toNat < 128
  · by_cases hw : White c
    · apply Classical.byContradiction; intro e
      have := (hf.blank c (by simp [White] at hw ⊢; grind)).2 _ h
      simp at this
    · rw [hf.ascii c ha hw] at h
      simp at h
      exact h.symm
  · have := (hf.other c (by omega)).2 _ h
    exact absurd this (by decide)

/-- A property of characters that does not tell white space characters apart, nor those outside ASCII. -/
def Uniform (p : Char → Bool) : Prop :=
  (∀ c d, White c → White d → p c = p d) ∧ ∀ c d : Char, 128 ≤ c.toNat → 128 ≤ d.toNat → p c = p d

theorem Uniform.image {p : Char → Bool} (hp : Uniform p) (hf : Recoding f) {c d : Char} (h : d ∈ f c) : p d = p c := by
  rcases Recodes.image hf h with ⟨-, rfl⟩ | ⟨h1, h2⟩ | ⟨h1, h2⟩
  · rfl
  · exact hp.1 _ _ h2 h1
  · exact hp.2 _ _ h2 h1

/-! ## Texts -/

theorem recode_nil : recode f [] = [] := rfl
theorem recode_cons {c : Char} {s : Str} : recode f (c :: s) = f c ++ recode f s := by simp [recode]
theorem recode_append {s t : Str} : recode f (s ++ t) = recode f s ++ recode f t := by simp [recode]

theorem recode_plain (hf : Recoding f) {t : Str} (ht : ∀ c ∈ t, Plain c) : recode f t = t := by
  induction t with
  | nil => rfl
  | cons c t ih =>
    rw [recode_cons, plain_eq hf (ht c (by simp)), ih fun d h => ht d (by simp [h])]
    rfl

theorem recode_eq_nil (hf : Recoding f) {s : Str} (h : recode f s = []) : s = [] := by
  cases s with
  | nil => rfl
  | cons c s => rw [recode_cons] at h; simp [ne_nil hf] at h

theorem recode_suffix {r s : Str} (h : r <:+ s) : recode f r <:+ recode f s := by
  obtain ⟨t, rfl⟩ := h
  rw [recode_append]
  exact List.suffix_append _ _

theorem recode_inj (hf : Recoding f) {r s : Str} (h : r <:+ s) : recode f r = recode f s ↔ r = s := by
  refine ⟨fun e => ?_, fun e => by rw [e]⟩
  obtain ⟨t, rfl⟩ := h
  rw [recode_append] at e
  have : recode f t = [] := by simpa using e
  rw [recode_eq_nil hf this]
  rfl

theorem recode_dropWhile (hf : Recoding f) {p : Char → Bool} (hp : Uniform p) (s : Str) :
    (recode f s).takeWhile p = recode f (s.takeWhile p) ∧ (recode f s).dropWhile p = recode f (s.dropWhile p) := by
  induction s with
  | nil => exact ⟨rfl, rfl⟩
  | cons c s ih =>
    rw [recode_cons]
    cases e : p c with
    | true =>
      have h : ∀ d ∈ f c, p d = true := fun d hd => by rw [hp.image hf hd, e]
      rw [List.takeWhile_append_of_pos h, List.dropWhile_append_of_pos h, List.takeWhile_cons_of_pos e,
        List.dropWhile_cons_of_pos e, recode_cons, ih.1, ih.2]
      exact ⟨rfl, rfl⟩
    | false =>
      have hn := ne_nil hf c
      have he : p c ≠ true := by simp [e]
      rw [List.takeWhile_cons_of_neg he, List.dropWhile_cons_of_neg he, recode_cons]
      cases h : f c with
      | nil => exact absurd h hn
      | cons d u =>
        have : p d ≠ true := by rw [hp.image hf (c := c) (d := d) (by simp [h]), e]; simp
        rw [List.cons_append, List.takeWhile_cons_of_neg this, List.dropWhile_cons_of_neg this]
        exact ⟨rfl, rfl⟩

theorem recode_prefix (hf : Recoding f) {t : Str} (ht : ∀ c ∈ t, Plain c) (s : Str) (h : t <+: recode f s) : t <+: s := by
  induction t generalizing s with
  | nil => exact List.nil_prefix
  | cons a t ih =>
    cases s with
    | nil => simp [recode_nil] at h
    | cons c s =>
      rw [recode_cons] at h
      have ha := ht a (by simp)
      have hc : c = a := by
        cases e : f c with
        | nil => exact absurd e (ne_nil hf c)
        | cons d u =>
          rw [e] at h
          simp at h
          exact mem_plain hf ha (by simp [e, h.1])
      subst hc
      rw [plain_eq hf ha] at h
      simp at h
      simp [ih (fun d hd => ht d (by simp [hd])) s h]

theorem recode_prefix' (hf : Recoding f) {t : Str} (ht : ∀ c ∈ t, Plain c) {s : Str} (h : t <+: s) : t <+: recode f s := by
  obtain ⟨r, rfl⟩ := h
  rw [recode_append, recode_plain hf ht]
  exact List.prefix_append _ _

theorem skip_infix {a : Char} {t u s : Str} (hu : a ∉ u) (h : a :: t <:+: u ++ s) : a :: t <:+: s := by
  induction u with
  | nil => exact h
  | cons c u ih =>
    rw [List.cons_append, List.infix_cons_iff] at h
    rcases h with h | h
    · simp at h
      simp [h.1] at hu
    · exact ih (fun e => hu (by simp [e])) h

theorem recode_infix (hf : Recoding f) {a : Char} {t : Str} (ht : ∀ c ∈ a :: t, Plain c) (s : Str)
    (h : a :: t <:+: recode f s) : a :: t <:+: s := by
  induction s with
  | nil => simp [recode_nil] at h
  | cons c s ih =>
    by_cases e : c = a
    · subst e
      rw [recode_cons, plain_eq hf (ht c (by simp)), List.singleton_append, List.infix_cons_iff] at h
      rcases h with h | h
      · refine List.IsPrefix.isInfix (recode_prefix hf ht _ ?_)
        rwa [recode_cons, plain_eq hf (ht c (by simp))]
      · exact List.infix_cons (ih h)
    · rw [recode_cons] at h
      exact List.infix_cons (ih (skip_infix (fun hm => e (mem_plain hf (ht a (by simp)) hm)) h))

theorem recode_line (hf : Recoding f) {s : Str} (h : '\n' ∈ recode f s) : '\n' ∈ s := by
  simp only [recode, List.mem_flatMap] at h
  obtain ⟨c, hc, h⟩ := h
  rwa [mem_line hf h] at hc

/-! ## White space and comments -/

theorem trivia_whites' {u t : Str} (hu : ∀ c ∈ u, White c) (ht : Trivia t) : Trivia (u ++ t) := by
  induction u with
  | nil => exact ht
  | cons c u ih =>
    refine .white ?_ (ih fun d hd => hu d (by simp [hd]))
    have := hu c (by simp)
    simp [White] at this ⊢
    grind

theorem plain_slash : Plain '/' := ⟨by decide, by simp [White]⟩
theorem plain_star : Plain '*' := ⟨by decide, by simp [White]⟩

theorem recode_trivia (hf : Recoding f) {t : Str} (h : Trivia t) : Trivia (recode f t) := by
  induction h with
  | nil => exact .nil
  | @white c t hc _ ih =>
    rw [recode_cons]
    refine trivia_whites' (fun d hd => ?_) ih
    rcases image hf hd with ⟨h1, -⟩ | ⟨-, h1⟩ | ⟨h1, -⟩
    · exact absurd (by simp [White] at hc ⊢; grind) h1.2
    · exact h1
    · have := white_ascii (c := c) (by simp [White] at hc ⊢; grind)
      omega
  | @line body t hb _ ih =>
    obtain ⟨u, v, e, hu⟩ : ∃ u v, f '\n' = u ++ '\n' :: v ∧ '\n' ∉ u := by
      obtain ⟨u, v, h1, h2⟩ := List.eq_append_cons_of_mem hf.line.1
      exact ⟨u, v, h1, h2⟩
    have hv : ∀ c ∈ v, White c := fun c hc => hf.line.2 c (by simp [e, hc])
    have := Trivia.line (body := recode f body ++ u) (t := v ++ recode f t)
      (by simp only [List.mem_append, not_or]; exact ⟨fun h => hb (recode_line hf h), hu⟩) (trivia_whites' hv ih)
    simp only [recode_append, recode_cons, recode_nil, plain_eq hf plain_slash, e]
    simpa using this
  | @block body t hb _ ih =>
    have := Trivia.block (body := recode f body) (t := recode f t) (fun h => hb (recode_infix hf (by
      simp [plain_slash, plain_star]) _ h)) ih
    simp only [recode_append, recode_cons, recode_nil, plain_eq hf plain_slash, plain_eq hf plain_star]
    simpa using this

theorem recode_noTrivia (hf : Recoding f) {s : Str} (h : NoTrivia s) : NoTrivia (recode f s) := by
  have key : ∀ t r, t ≠ [] → Trivia t → s ≠ t ++ r := fun t r h1 h2 h3 => h1 (h t r h3 h2)
  intro t r e ht
  cases ht with
  | nil => rfl
  | @white c t hc _ =>
    exfalso
    cases s with
    | nil => simp [recode_nil] at e
    | cons d s =>
      have hd : White d := by
        rw [recode_cons] at e
        have : c ∈ f d := by
          cases e' : f d with
          | nil => exact absurd e' (ne_nil hf d)
          | cons x u => rw [e'] at e; simp at e; simp [e.1]
        rcases image hf this with ⟨-, rfl⟩ | ⟨h1, -⟩ | ⟨-, h1⟩
        · simp [White] at hc ⊢; grind
        · exact h1
        · have := white_ascii (c := c) (by simp [White] at hc ⊢; grind)
          omega
      exact key [d] s (by simp) (.white (by simp [White] at hd ⊢; grind) .nil) rfl
  | @line body t hb _ =>
    exfalso
    obtain ⟨s', rfl⟩ := recode_prefix hf (t := c!"//") (by simp [plain_slash]) s (by rw [e]; simp)
    have hm : '\n' ∈ s' := by
      refine recode_line hf ?_
      rw [recode_append, recode_plain hf (by simp [plain_slash])] at e
      simp at e
      simp [e]
    obtain ⟨u, v, rfl, hu⟩ := List.eq_append_cons_of_mem hm
    exact key (c!"//" ++ u ++ c!"\n" ++ []) v (by simp) (.line hu .nil) (by simp)
  | @block body t hb _ =>
    exfalso
    obtain ⟨s', rfl⟩ := recode_prefix hf (t := c!"/*") (by simp [plain_slash, plain_star]) s (by rw [e]; simp)
    have hm : c!"*/" <:+: s' := by
      refine recode_infix hf (by simp [plain_slash, plain_star]) _ ?_
      rw [recode_append, recode_plain hf (by simp [plain_slash, plain_star])] at e
      simp at e
      exact ⟨body, t ++ r, by simp [e]⟩
    have : splitAtFirst c!"*/" s' ≠ none := by
      intro hn
      obtain ⟨x, y, rfl⟩ := hm
      exact splitAtFirst_none hn x (c!"*/" ++ y) (by simp) (by simp)
    cases e1 : splitAtFirst c!"*/" s' with
    | none => exact this e1
    | some p =>
      obtain ⟨a, b⟩ := p
      obtain ⟨h1, ⟨b', h2⟩, h3⟩ := splitAtFirst_some e1
      subst h2
      refine key (c!"/*" ++ a ++ c!"*/" ++ []) b' (by simp) (.block ?_ .nil) (by simp [h1])
      rintro ⟨x, y, rfl⟩
      have := h3 x (c!"*/" ++ y ++ (c!"*/" ++ b')) (by simp [h1]) (by simp)
      simp at this
      omega

theorem recode_strip (hf : Recoding f) (s : Str) : strip (recode f s) = recode f (strip s) := by
  obtain ⟨t, h1, h2, h3⟩ := skips_strip s
  refine (skips_iff.1 ⟨recode f t, ?_, recode_trivia hf h2, recode_noTrivia hf h3⟩).symm
  rw [← recode_append, ← h1]

/-! ## Combinators -/

/-- A result with the remainder and the value changed. -/
def re {α β : Type} (f : Char → Str) (h : α → β) : Res Char α → Res Char β
  | .ok r a => .ok (recode f r) (h a)
  | .err e => .err (recodeErr f e)
  | .diverge => .diverge

/-- `q` does on the other text what `p` does on the text. -/
structure Comm {α β : Type} (f : Char → Str) (h : α → β) (p : P Char α) (q : P Char β) : Prop where
  eq : ∀ s, q (recode f s) = re f h (p s)
  left : Suff p
  right : Suff q

section
variable {α β γ α' β' : Type} {h : α → α'} {k : β → β'} {p : P Char α} {q : P Char α'}

theorem comm_ret {a : α} {b : α'} (e : b = h a) : Comm f h (Nom.ret a) (Nom.ret b) where
  eq s := by simp [Nom.ret, re, e]
  left s r a e := by simp [Nom.ret] at e; simp [e.1]
  right s r a e := by simp [Nom.ret] at e; simp [e.1]

theorem suff_seq {p : P Char α} {g : α → P Char β} (hp : Suff p) (hg : ∀ a, Suff (g a)) : Suff (seq p g) := by
  intro s r b e
  simp only [seq] at e
  split at e
  · next i a e' => exact (hg a _ _ _ e).trans (hp _ _ _ e')
  · cases e
  · cases e

theorem comm_seq {g : α → P Char β} {g' : α' → P Char β'} (hp : Comm f h p q) (hg : ∀ a, Comm f k (g a) (g' (h a)))
    (hr : ∀ a, Suff (g' a)) : Comm f k (seq p g) (seq q g') where
  eq s := by
    simp only [seq, hp.eq]
    cases p s with
    | ok r a => exact (hg a).eq r
    | err e => rfl
    | diverge => rfl
  left := suff_seq hp.left fun a => (hg a).left
  right := suff_seq hp.right hr

theorem comm_map {F : α → β} {F' : α' → β'} (hp : Comm f h p q) (e : ∀ a, F' (h a) = k (F a)) :
    Comm f k (Nom.map F p) (Nom.map F' q) :=
  comm_seq hp (fun a => comm_ret (e a)) fun a => (comm_ret (f := f) (h := id) (a := F' a) rfl).left

theorem comm_orElse {p' : P Char α} {q' : P Char α'} (hp : Comm f h p q) (hp' : Comm f h p' q') :
    Comm f h (orElse p p') (orElse q q') where
  eq s := by
    simp only [orElse, hp.eq]
    cases p s with
    | ok r a => rfl
    | err e =>
      cases e with
      | error => exact hp'.eq s
      | incomplete => rfl
      | failure => rfl
    | diverge => rfl
  left s r a e := by
    simp only [orElse] at e
    split at e
    · exact hp'.left _ _ _ e
    · exact hp.left _ _ _ e
  right s r a e := by
    simp only [orElse] at e
    split at e
    · exact hp'.right _ _ _ e
    · exact hp.right _ _ _ e

theorem comm_altEnd : Comm f h altEnd altEnd where
  eq s := rfl
  left s r a e := by simp [altEnd] at e
  right s r a e := by simp [altEnd] at e

theorem suff_opt {p : P Char α} (hp : Suff p) : Suff (Nom.opt p) := by
  intro s r a e
  simp only [Nom.opt] at e
  split at e <;> try (simp at e; try (simp [e.1]; done))
  next e' =>
  rw [← e.1]
  exact hp _ _ _ e'

theorem comm_opt (hp : Comm f h p q) : Comm f (Option.map h) (Nom.opt p) (Nom.opt q) where
  eq s := by
    simp only [Nom.opt, hp.eq]
    cases p s with
    | ok r a => rfl
    | err x => cases x <;> rfl
    | diverge => rfl
  left := suff_opt hp.left
  right := suff_opt hp.right

theorem comm_cond {b : Bool} (hp : Comm f h p q) : Comm f (Option.map h) (Nom.cond b p) (Nom.cond b q) := by
  unfold Nom.cond
  cases b
  · exact comm_ret rfl
  · exact comm_map hp fun _ => rfl

theorem re_consRes {a : α} {x : Res Char (List α)} :
    re f (List.map h) (consRes a x) = consRes (h a) (re f (List.map h) x) := by
  cases x <;> rfl

theorem comm_many0 (hf : Recoding f) (hp : Comm f h p q) : Comm f (List.map h) (Nom.many0 p) (Nom.many0 q) where
  eq s := by
    induction hn : s.length using Nat.strongRecOn generalizing s with
    | ind n ih =>
      rw [many0_eq hp.left, many0_eq hp.right, hp.eq]
      cases e : p s with
      | ok r a =>
        have hr := hp.left _ _ _ e
        simp only [re, recode_inj hf hr]
        split
        · rfl
        · next hne =>
          have := suffix_ne_length hr hne
          rw [ih _ (by omega) r rfl]
          exact re_consRes.symm
      | err x => cases x <;> rfl
      | diverge => rfl
  left s := suff_many0Loop hp.left _ s
  right s := suff_many0Loop hp.right _ s

theorem comm_sepTail (hf : Recoding f) {p' : P Char β} {q' : P Char β'} (hs : Comm f k p' q') (hp : Comm f h p q) (s : Str) :
    sepTail q' q (recode f s) = re f (List.map h) (sepTail p' p s) := by
  induction hn : s.length using Nat.strongRecOn generalizing s with
  | ind n ih =>
    rw [sepTail_eq hs.left hp.left, sepTail_eq hs.right hp.right, hs.eq]
    cases e : p' s with
    | ok r b =>
      have hr := hs.left _ _ _ e
      simp only [re, recode_inj hf hr]
      split
      · next e0 => rfl
      · next hne =>
        have hlt := suffix_ne_length hr hne
        rw [hp.eq]
        cases e1 : p r with
        | ok r' a =>
          have hr' := hp.left _ _ _ e1
          simp only [re, recode_inj hf (hr'.trans hr)]
          split
          · rfl
          · have := hr'.length_le
            rw [ih _ (by omega) r' rfl]
            exact re_consRes.symm
        | err x => cases x <;> rfl
        | diverge => rfl
    | err x => cases x <;> rfl
    | diverge => rfl

theorem suff_separatedList {p' : P Char β} (hs : Suff p') (hp : Suff p) : Suff (separatedList p' p) := by
  intro s r b e
  simp only [Nom.separatedList] at e
  split at e <;> try (simp at e; try (simp [e.1]; done))
  next i a e' =>
  split at e
  · cases e
  · exact (suff_consRes (suff_sepLoop hs hp _) e).trans (hp _ _ _ e')

theorem suff_separatedNonemptyList {p' : P Char β} (hs : Suff p') (hp : Suff p) : Suff (separatedNonemptyList p' p) := by
  intro s r b e
  simp only [Nom.separatedNonemptyList] at e
  split at e <;> try (simp at e; done)
  next i a e' =>
  split at e
  · cases e
  · exact (suff_consRes (suff_sepLoop hs hp _) e).trans (hp _ _ _ e')

theorem comm_separatedList (hf : Recoding f) {p' : P Char β} {q' : P Char β'} (hs : Comm f k p' q') (hp : Comm f h p q) :
    Comm f (List.map h) (separatedList p' p) (separatedList q' q) where
  eq s := by
    simp only [Nom.separatedList, hp.eq]
    cases e : p s with
    | ok r a =>
      simp only [re, recode_inj hf (hp.left _ _ _ e)]
      split
      · rfl
      · exact (congrArg _ (comm_sepTail hf hs hp r)).trans re_consRes.symm
    | err x => cases x <;> rfl
    | diverge => rfl
  left := suff_separatedList hs.left hp.left
  right := suff_separatedList hs.right hp.right

theorem comm_separatedNonemptyList (hf : Recoding f) {p' : P Char β} {q' : P Char β'} (hs : Comm f k p' q')
    (hp : Comm f h p q) : Comm f (List.map h) (separatedNonemptyList p' p) (separatedNonemptyList q' q) where
  eq s := by
    simp only [Nom.separatedNonemptyList, hp.eq]
    cases e : p s with
    | ok r a =>
      simp only [re, recode_inj hf (hp.left _ _ _ e)]
      split
      · rfl
      · exact (congrArg _ (comm_sepTail hf hs hp r)).trans re_consRes.symm
    | err x => cases x <;> rfl
    | diverge => rfl
  left := suff_separatedNonemptyList hs.left hp.left
  right := suff_separatedNonemptyList hs.right hp.right

theorem suff_recognize {p : P Char α} (hp : Suff p) : Suff (recognize p) := by
  intro s r a e
  simp only [recognize] at e
  split at e <;> try (simp at e; done)
  next e' =>
  simp at e
  rw [← e.1]
  exact hp _ _ _ e'

theorem comm_recognize (hp : Comm f h p q) : Comm f (recode f) (recognize p) (recognize q) where
  eq s := by
    simp only [recognize, hp.eq]
    cases e : p s with
    | ok r a =>
      obtain ⟨t, rfl⟩ := hp.left _ _ _ e
      simp [re, recode_append]
    | err e => rfl
    | diverge => rfl
  left := suff_recognize hp.left
  right := suff_recognize hp.right

end

/-! ## Characters -/

section

theorem suff_tag {t : Str} : Suff (tag t) := by
  intro s r a e
  simp only [tag] at e
  split at e <;> simp at e
  rw [← e.1]
  exact List.drop_suffix _ _

theorem comm_tag (hf : Recoding f) {t : Str} (ht : ∀ c ∈ t, Plain c) : Comm f (recode f) (tag t) (tag t) where
  eq s := by
    rcases tag_cases t s with ⟨r, rfl, e⟩ | ⟨hn, e⟩
    · rw [e, recode_append, recode_plain hf ht, tag_append]
      simp [re, recode_plain hf ht]
    · rw [e, tag_err fun h => hn (recode_prefix hf ht s h)]
      rfl
  left := suff_tag
  right := suff_tag

theorem not_alpha {c : Char} (h : 128 ≤ c.toNat) : c.isAlpha = false := by
  simp only [Char.isAlpha, Char.isUpper, Char.isLower, Bool.or_eq_false_iff, decide_eq_false_iff_not, not_and,
    UInt32.not_le, UInt32.lt_iff_toNat_lt, UInt32.le_iff_toNat_le, ge_iff_le]
  simp
  omega

theorem not_digit {c : Char} (h : 128 ≤ c.toNat) : c.isDigit = false := by
  simp only [Char.isDigit, Bool.or_eq_false_iff, decide_eq_false_iff_not, not_and,
    UInt32.not_le, UInt32.lt_iff_toNat_lt, UInt32.le_iff_toNat_le, ge_iff_le]
  simp
  omega

theorem ne_plain {c d : Char} (h : 128 ≤ c.toNat) (hd : d.toNat < 128) : c ≠ d := by
  rintro rfl
  omega

theorem uniform_of_not {p : Char → Bool} (h1 : ∀ c, White c → p c = false) (h2 : ∀ c : Char, 128 ≤ c.toNat → p c = false) :
    Uniform p := ⟨fun c d hc hd => by rw [h1 c hc, h1 d hd], fun c d hc hd => by rw [h2 c hc, h2 d hd]⟩

theorem uniform_identByte : Uniform isIdentByte := by
  refine uniform_of_not (fun c hc => ?_) fun c hc => ?_
  · simp [White] at hc
    rcases hc with rfl | rfl | rfl | rfl <;> decide
  · simp [isIdentByte, Char.isAlphanum, not_alpha hc, not_digit hc, ne_plain hc (d := '_') (by decide),
      ne_plain hc (d := '-') (by decide)]

theorem suff_identTag {t : Str} : Suff (identTag t) := by
  intro s r a e
  simp only [identTag] at e
  split at e
  · next i o e' =>
    have := suff_tag _ _ _ e'
    split at e
    · split at e <;> simp at e
      rw [← e.1]; exact this
    · simp at e
      rw [e.1]; exact this
  · cases e
  · cases e

theorem comm_identTag (hf : Recoding f) {t : Str} (ht : ∀ c ∈ t, Plain c) :
    Comm f (recode f) (identTag t) (identTag t) where
  eq s := by
    simp only [identTag, (comm_tag hf ht).eq]
    cases e : tag t s with
    | ok r o =>
      cases r with
      | nil => rfl
      | cons c r =>
        simp only [re, recode_cons]
        cases e' : f c with
        | nil => exact absurd e' (ne_nil hf c)
        | cons d u =>
          have : isIdentByte d = isIdentByte c := uniform_identByte.image hf (by simp [e'])
          simp only [List.cons_append, this]
          split
          · rfl
          · simp [recode_cons, e']
    | err e => rfl
    | diverge => rfl
  left := suff_identTag
  right := suff_identTag

theorem suff_takeWhile {p : Char → Bool} : Suff (takeWhile p) := by
  intro s r a e
  simp only [takeWhile] at e
  simp at e
  rw [← e.1]
  exact List.dropWhile_suffix _

theorem comm_takeWhile (hf : Recoding f) {p : Char → Bool} (hp : Uniform p) :
    Comm f (recode f) (takeWhile p) (takeWhile p) where
  eq s := by
    obtain ⟨h1, h2⟩ := recode_dropWhile hf hp s
    simp only [takeWhile, re, h1, h2]
  left := suff_takeWhile
  right := suff_takeWhile

theorem suff_takeWhile1 {p : Char → Bool} : Suff (takeWhile1 p) := by
  intro s r a e
  simp only [takeWhile1] at e
  split at e <;> simp at e
  rw [← e.1]
  exact List.dropWhile_suffix _

theorem comm_takeWhile1 (hf : Recoding f) {p : Char → Bool} (hp : Uniform p) :
    Comm f (recode f) (takeWhile1 p) (takeWhile1 p) where
  eq s := by
    obtain ⟨h1, h2⟩ := recode_dropWhile hf hp s
    simp only [takeWhile1, h1, h2]
    cases e : s.takeWhile p with
    | nil => rfl
    | cons c u =>
      cases e' : recode f (c :: u) with
      | nil => exact absurd (recode_eq_nil hf e') (by simp)
      | cons d v => simp [re, e']
  left := suff_takeWhile1
  right := suff_takeWhile1

theorem suff_char {c : Char} : Suff (Nom.char c) := by
  intro s r a e
  unfold Nom.char at e
  split at e
  · split at e <;> simp at e
    rw [← e.1]
    exact List.suffix_cons _ _
  · cases e

theorem comm_char (hf : Recoding f) {c : Char} (hc : Plain c) : Comm f id (Nom.char c) (Nom.char c) where
  eq s := by
    cases s with
    | nil => rfl
    | cons d s =>
      by_cases e : d = c
      · subst e
        simp [Nom.char, recode_cons, plain_eq hf hc, re]
      · rw [recode_cons]
        cases e' : f d with
        | nil => exact absurd e' (ne_nil hf d)
        | cons x u =>
          have : x ≠ c := by rintro rfl; exact e (mem_plain hf hc (by simp [e']))
          simp [Nom.char, this, e, re, recodeErr, recode_cons, e']
  left := suff_char
  right := suff_char

theorem suff_oneOf {cs : Str} : Suff (oneOf cs) := by
  intro s r a e
  unfold oneOf at e
  split at e
  · split at e <;> simp at e
    rw [← e.1]
    exact List.suffix_cons _ _
  · cases e

theorem comm_oneOf (hf : Recoding f) {cs : Str} (hc : ∀ c ∈ cs, Plain c) : Comm f id (oneOf cs) (oneOf cs) where
  eq s := by
    cases s with
    | nil => rfl
    | cons d s =>
      by_cases e : d ∈ cs
      · simp [oneOf, recode_cons, plain_eq hf (hc d e), re, e]
      · rw [recode_cons]
        cases e' : f d with
        | nil => exact absurd e' (ne_nil hf d)
        | cons x u =>
          have : x ∉ cs := fun h => e (mem_plain hf (hc x h) (c := d) (by simp [e']) ▸ h)
          simp [oneOf, this, e, re, recodeErr, recode_cons, e']
  left := suff_oneOf
  right := suff_oneOf

theorem suff_sp : Suff sp := by
  intro s r a e
  rw [sp_eq] at e
  simp at e
  rw [← e.1]
  exact strip_suffix s

theorem comm_sp (hf : Recoding f) : Comm f (recode f) sp sp where
  eq s := by
    rw [sp_eq, sp_eq, recode_strip hf]
    obtain ⟨t, h⟩ := strip_suffix s
    simp only [re]
    congr 1
    conv => lhs; rw [← h]
    conv => rhs; rw [← h]
    have : strip (t ++ strip s) = strip s := by rw [h]
    simp [recode_append, this]
  left := suff_sp
  right := suff_sp

end

end Verif.Recodes
