import Verif.Proof.Trivia

/-! # Literal parsers against regular expressions -/

namespace Verif
open Nom Spec

namespace Spec.Regex

theorem matches_cls {p : Char → Prop} {w : Str} : (cls p).Matches w ↔ ∃ c, w = [c] ∧ p c := by
  constructor
  · rintro ⟨⟩; exact ⟨_, rfl, ‹_›⟩
  · rintro ⟨c, rfl, h⟩; exact .cls h

theorem matches_chr {c : Char} {w : Str} : (chr c).Matches w ↔ w = [c] := by
  simp [chr, matches_cls]

theorem matches_eps {w : Str} : eps.Matches w ↔ w = [] := by
  constructor
  · rintro ⟨⟩; rfl
  · rintro rfl; exact .eps

theorem matches_seq {a b : Regex} {w : Str} :
    (a ⬝ b).Matches w ↔ ∃ u v, w = u ++ v ∧ a.Matches u ∧ b.Matches v := by
  constructor
  · rintro ⟨⟩; exact ⟨_, _, rfl, ‹_›, ‹_›⟩
  · rintro ⟨u, v, rfl, h1, h2⟩; exact .seq h1 h2

theorem matches_alt {a b : Regex} {w : Str} :
    (a ∣ b).Matches w ↔ a.Matches w ∨ b.Matches w := by
  constructor
  · rintro (_ | _ | _ | h | h)
    · exact .inl h
    · exact .inr h
  · rintro (h | h)
    · exact .left h
    · exact .right h

theorem matches_opt {a : Regex} {w : Str} : (opt a).Matches w ↔ a.Matches w ∨ w = [] := by
  simp [opt, matches_alt, matches_eps]

theorem matches_star_cls {p : Char → Prop} {w : Str} :
    (star (cls p)).Matches w ↔ ∀ c ∈ w, p c := by
  constructor
  · intro h
    generalize hr : star (cls p) = re at h
    induction h with
    | starNil => simp
    | starCons hu _ _ ih =>
      cases hr
      obtain ⟨c, rfl, hc⟩ := matches_cls.1 hu
      intro x hx
      simp at hx
      rcases hx with rfl | hx
      · exact hc
      · exact ih rfl x hx
    | _ => cases hr
  · intro h
    induction w with
    | nil => exact .starNil
    | cons c w ih =>
      exact .starCons (u := [c]) (.cls (h c (by simp))) (ih fun x hx => h x (by simp [hx]))

theorem matches_plus_cls {p : Char → Prop} {w : Str} :
    (plus (cls p)).Matches w ↔ w ≠ [] ∧ ∀ c ∈ w, p c := by
  simp only [plus, matches_seq, matches_cls, matches_star_cls]
  constructor
  · rintro ⟨u, v, rfl, ⟨c, rfl, hc⟩, hv⟩
    exact ⟨by simp, by simpa [hc] using hv⟩
  · rintro ⟨h1, h2⟩
    cases w with
    | nil => simp at h1
    | cons c w => exact ⟨[c], w, rfl, ⟨c, rfl, h2 c (by simp)⟩, fun x hx => h2 x (by simp [hx])⟩

end Spec.Regex

open Regex

theorem isDigit_iff (c : Char) : c.isDigit = true ↔ '0' ≤ c ∧ c ≤ '9' := by
  simp [Char.isDigit, Char.le_def]

theorem isAlpha_iff (c : Char) :
    c.isAlpha = true ↔ ('A' ≤ c ∧ c ≤ 'Z') ∨ ('a' ≤ c ∧ c ≤ 'z') := by
  simp [Char.isAlpha, Char.isUpper, Char.isLower, Char.le_def]

theorem isIdentChar_iff (c : Char) : isIdentChar c = true ↔
    ('0' ≤ c ∧ c ≤ '9') ∨ ('A' ≤ c ∧ c ≤ 'Z') ∨ ('a' ≤ c ∧ c ≤ 'z') ∨ c = '_' ∨ c = '-' := by
  have := isAlpha_iff c
  have := isDigit_iff c
  simp [isIdentChar, Char.isAlphanum, *]
  grind

theorem isHexDigit_iff (c : Char) : isHexDigit c = true ↔
    ('0' ≤ c ∧ c ≤ '9') ∨ ('A' ≤ c ∧ c ≤ 'F') ∨ ('a' ≤ c ∧ c ≤ 'f') := by
  have := isDigit_iff c
  simp [isHexDigit, *]
  grind

theorem isOctDigit_iff (c : Char) : isOctDigit c = true ↔ '0' ≤ c ∧ c ≤ '7' := by
  simp [isOctDigit]

/-- `p` consumes the longest match of `re`, and fails exactly if there is none. -/
def Rec {α : Type} (p : P Char α) (re : Regex) : Prop := ∀ s,
  (∃ w r a, p s = .ok r a ∧ LongestMatch re s w r) ∨
  (∃ q k, p s = .err (.error q k) ∧ q <:+ s ∧ ∀ w, w <+: s → ¬ re.Matches w)

theorem LongestMatch.unique {re : Regex} {s w r w' r' : Str} (h : LongestMatch re s w r)
    (h' : LongestMatch re s w' r') : w = w' ∧ r = r' := by
  obtain ⟨h1, h2, h3⟩ := h
  obtain ⟨h1', h2', h3'⟩ := h'
  have a := h3 w' ⟨r', h1'.symm⟩ h2'
  have b := h3' w ⟨r, h1.symm⟩ h2
  exact List.append_inj (h1.symm.trans h1') (by omega)

theorem prefix_eq {u v s : Str} (hu : u <+: s) (hv : v <+: s) (h : u.length = v.length) :
    u = v :=
  (List.prefix_of_prefix_length_le hu hv (by omega)).eq_of_length h

theorem rec_char (c : Char) : Rec (Nom.char c) (chr c) := by
  intro s
  cases s with
  | nil =>
    refine .inr ⟨_, _, rfl, List.suffix_refl _, ?_⟩
    rintro w hw h
    rw [matches_chr] at h
    simp_all
  | cons d s =>
    by_cases h : d = c
    · subst h
      refine .inl ⟨[d], s, d, by simp [Nom.char], rfl, by simp [matches_chr], ?_⟩
      intro w _ hw
      rw [matches_chr] at hw; simp [hw]
    · refine .inr ⟨_, .char, by simp only [Nom.char, if_neg h], List.suffix_refl _, ?_⟩
      rintro w hw h'
      rw [matches_chr] at h'
      subst h'
      simp at hw
      exact h hw.symm

theorem rec_cls {α : Type} {p : P Char α} {f : Char → Prop}
    (h1 : p [] = .err (.error [] .oneOf))
    (h2 : ∀ c s, (f c ∧ ∃ a, p (c :: s) = .ok s a) ∨
      (¬ f c ∧ ∃ k, p (c :: s) = .err (.error (c :: s) k))) : Rec p (cls f) := by
  intro s
  cases s with
  | nil =>
    refine .inr ⟨_, _, h1, List.suffix_refl _, ?_⟩
    rintro w hw h
    obtain ⟨c, rfl, -⟩ := matches_cls.1 h
    simp at hw
  | cons d s =>
    rcases h2 d s with ⟨h, a, e⟩ | ⟨h, k, e⟩
    · refine .inl ⟨[d], s, a, e, rfl, .cls h, ?_⟩
      intro w _ hw
      obtain ⟨c, rfl, -⟩ := matches_cls.1 hw; simp
    · refine .inr ⟨_, _, e, List.suffix_refl _, ?_⟩
      rintro w hw h'
      obtain ⟨c, rfl, hc⟩ := matches_cls.1 h'
      simp at hw
      exact h (hw ▸ hc)

theorem takeWhile_prefix {f : Char → Bool} {w s : Str} (hw : w <+: s) (h : ∀ c ∈ w, f c = true) :
    w.length ≤ (s.takeWhile f).length := by
  induction w generalizing s with
  | nil => simp
  | cons c w ih =>
    obtain ⟨r, rfl⟩ := hw
    simp only [List.cons_append]
    rw [List.takeWhile_cons_of_pos (h c (by simp))]
    have := ih (s := w ++ r) (List.prefix_append _ _) (fun x hx => h x (by simp [hx]))
    simpa using this

theorem rec_takeWhile {f : Char → Bool} {p : Char → Prop} (hf : ∀ c, f c = true ↔ p c) :
    Rec (takeWhile f) (star (cls p)) := by
  intro s
  refine .inl ⟨s.takeWhile f, s.dropWhile f, _, rfl, by simp, ?_, ?_⟩
  · exact matches_star_cls.2 fun c hc => (hf c).1 (mem_takeWhile_imp hc)
  · intro w hw h
    exact takeWhile_prefix hw fun c hc => (hf c).2 (matches_star_cls.1 h c hc)

theorem rec_takeWhile1 {f : Char → Bool} {p : Char → Prop} (hf : ∀ c, f c = true ↔ p c) :
    Rec (takeWhile1 f) (plus (cls p)) := by
  intro s
  cases e : s.takeWhile f with
  | nil =>
    refine .inr ⟨s, .takeWhile1, by simp [takeWhile1, e], List.suffix_refl _, ?_⟩
    intro w hw h
    obtain ⟨h1, h2⟩ := matches_plus_cls.1 h
    have := takeWhile_prefix hw fun c hc => (hf c).2 (h2 c hc)
    rw [e] at this
    simp at this
    exact h1 this
  | cons c w =>
    refine .inl ⟨c :: w, s.dropWhile f, c :: w, by simp only [takeWhile1, e], ?_, ?_, ?_⟩
    · rw [← e]; simp
    · refine matches_plus_cls.2 ⟨by simp, fun x hx => (hf x).1 ?_⟩
      rw [← e] at hx
      exact mem_takeWhile_imp hx
    · intro w' hw h
      rw [← e]
      exact takeWhile_prefix hw fun c hc => (hf c).2 ((matches_plus_cls.1 h).2 c hc)

theorem rec_opt {α : Type} {p : P Char α} {a : Regex} (hp : Rec p a) : Rec (Nom.opt p) (opt a) := by
  intro s
  rcases hp s with ⟨w, r, x, e, h1, h2, h3⟩ | ⟨q, k, e, h1, h2⟩
  · refine .inl ⟨w, r, some x, by simp [Nom.opt, e], h1, matches_opt.2 (.inl h2), ?_⟩
    intro w' hw h
    rcases matches_opt.1 h with h | rfl
    · exact h3 w' hw h
    · simp
  · refine .inl ⟨[], s, none, by simp [Nom.opt, e], rfl, matches_opt.2 (.inr rfl), ?_⟩
    intro w' hw h
    rcases matches_opt.1 h with h | rfl
    · exact absurd h (h2 w' hw)
    · simp

/-- Sequences: `H` says that a match of the first part other than the longest does not lead
to a longer match of the whole. -/
theorem rec_seq {α β : Type} {p : P Char α} {q : α → P Char β} {a b : Regex}
    (hp : Rec p a) (hq : ∀ x, Rec (q x) b)
    (H : ∀ s u r u' v', LongestMatch a s u r → a.Matches u' → u' ++ v' <+: s → b.Matches v' →
      u' = u ∨ (b.Matches [] ∧ (u' ++ v').length ≤ u.length)) :
    Rec (Nom.seq p q) (a ⬝ b) := by
  intro s
  rcases hp s with ⟨u, r, x, e, h1⟩ | ⟨q', k, e, h1, h2⟩
  · rcases hq x r with ⟨v, r', y, e', h2⟩ | ⟨q', k, e', h2, h3⟩
    · refine .inl ⟨u ++ v, r', y, by simp [Nom.seq, e, e'], ?_, .seq h1.2.1 h2.2.1, ?_⟩
      · rw [h1.1, h2.1]; simp
      · intro w hw h
        obtain ⟨u', v', rfl, hu, hv⟩ := matches_seq.1 h
        rcases H s u r u' v' h1 hu hw hv with rfl | ⟨-, h⟩
        · rw [h1.1, List.prefix_append_right_inj] at hw
          have := h2.2.2 v' hw hv
          simp; omega
        · simp at h ⊢; omega
    · refine .inr ⟨q', k, by simp [Nom.seq, e, e'], ?_, ?_⟩
      · exact h2.trans ⟨u, h1.1.symm⟩
      · intro w hw h
        obtain ⟨u', v', rfl, hu, hv⟩ := matches_seq.1 h
        rcases H s u r u' v' h1 hu hw hv with rfl | ⟨h, -⟩
        · rw [h1.1, List.prefix_append_right_inj] at hw
          exact h3 v' hw hv
        · exact h3 [] (by simp) h
  · refine .inr ⟨q', k, by simp [Nom.seq, e], h1, ?_⟩
    intro w hw h
    obtain ⟨u', v', rfl, hu, hv⟩ := matches_seq.1 h
    exact h2 u' ((List.prefix_append _ _).trans hw) hu

theorem rec_ret {α : Type} {a : α} : Rec (Nom.ret a) eps := by
  intro s
  refine .inl ⟨[], s, a, rfl, rfl, .eps, ?_⟩
  intro w _ h
  simp [matches_eps.1 h]

/-- The final `>> (())`. -/
theorem rec_map {α β : Type} {p : P Char α} {f : α → β} {a : Regex} (hp : Rec p a) :
    Rec (Nom.seq p fun x => Nom.ret (f x)) a := by
  intro s
  rcases hp s with ⟨w, r, x, e, h⟩ | ⟨q, k, e, h⟩
  · exact .inl ⟨w, r, f x, by simp [Nom.seq, e, Nom.ret], h⟩
  · exact .inr ⟨q, k, by simp [Nom.seq, e], h⟩

theorem rec_alt {α : Type} {p q : P Char α} {a b : Regex} (hp : Rec p a) (hq : Rec q b)
    (H : ∀ s u r v, LongestMatch a s u r → v <+: s → b.Matches v → v.length ≤ u.length) :
    Rec (alt [p, q]) (a ∣ b) := by
  intro s
  rcases hp s with ⟨w, r, x, e, h⟩ | ⟨q', k, e, h1, h2⟩
  · refine .inl ⟨w, r, x, by simp [Nom.alt, Nom.orElse, e], h.1, .left h.2.1, ?_⟩
    intro w' hw h'
    rcases matches_alt.1 h' with h' | h'
    · exact h.2.2 w' hw h'
    · exact H s w r w' h hw h'
  · rcases hq s with ⟨w, r, x, e', h⟩ | ⟨q', k, e', h3, h4⟩
    · refine .inl ⟨w, r, x, by simp [Nom.alt, Nom.orElse, e, e'], h.1, .right h.2.1, ?_⟩
      intro w' hw h'
      rcases matches_alt.1 h' with h' | h'
      · exact absurd h' (h2 w' hw)
      · exact h.2.2 w' hw h'
    · refine .inr ⟨s, .alt, by simp [Nom.alt, Nom.orElse, e, e', altEnd], List.suffix_refl _, ?_⟩
      intro w hw h
      rcases matches_alt.1 h with h | h
      · exact h2 w hw h
      · exact h4 w hw h

/-! ## Discharging `H` -/

/-- Every match of `b` starts with a character satisfying `f`. -/
def Starts (f : Char → Prop) (b : Regex) : Prop :=
  ∀ v, b.Matches v → ∃ c v', v = c :: v' ∧ f c

theorem starts_chr {c : Char} {f : Char → Prop} (h : f c) : Starts f (chr c) := by
  intro v hv; exact ⟨c, [], matches_chr.1 hv, h⟩

theorem starts_cls {p f : Char → Prop} (h : ∀ c, p c → f c) : Starts f (cls p) := by
  intro v hv
  obtain ⟨c, rfl, hc⟩ := matches_cls.1 hv
  exact ⟨c, [], rfl, h c hc⟩

theorem starts_seq {f : Char → Prop} {a b : Regex} (h : Starts f a) : Starts f (a ⬝ b) := by
  intro v hv
  obtain ⟨u, w, rfl, h1, -⟩ := matches_seq.1 hv
  obtain ⟨c, v', rfl, hc⟩ := h u h1
  exact ⟨c, v' ++ w, rfl, hc⟩

theorem starts_alt {f : Char → Prop} {a b : Regex} (h : Starts f a) (h' : Starts f b) :
    Starts f (a ∣ b) := by
  intro v hv
  rcases matches_alt.1 hv with hv | hv
  · exact h v hv
  · exact h' v hv

theorem starts_plus {p f : Char → Prop} (h : ∀ c, p c → f c) : Starts f (plus (cls p)) :=
  starts_seq (starts_cls h)

theorem starts_opt_seq {f : Char → Prop} {a b : Regex} (h : Starts f a) (h' : Starts f b) :
    Starts f (opt a ⬝ b) := by
  intro v hv
  obtain ⟨u, w, rfl, h1, h2⟩ := matches_seq.1 hv
  rcases matches_opt.1 h1 with h1 | rfl
  · obtain ⟨c, v', rfl, hc⟩ := h u h1
    exact ⟨c, v' ++ w, rfl, hc⟩
  · exact h' w h2

theorem starts_star_seq {p f : Char → Prop} {b : Regex} (h : ∀ c, p c → f c) (h' : Starts f b) :
    Starts f (star (cls p) ⬝ b) := by
  intro v hv
  obtain ⟨u, w, rfl, h1, h2⟩ := matches_seq.1 hv
  cases u with
  | nil => exact h' w h2
  | cons c u => exact ⟨c, u ++ w, rfl, h c (matches_star_cls.1 h1 c (by simp))⟩

/-- The shape of hypothesis `H` of `rec_seq`. -/
def Commits (a b : Regex) : Prop :=
  ∀ s u r u' v', LongestMatch a s u r → a.Matches u' → u' ++ v' <+: s → b.Matches v' →
      u' = u ∨ (b.Matches [] ∧ (u' ++ v').length ≤ u.length)

theorem commits_fixed {a b : Regex} (n : Nat) (h : ∀ w, a.Matches w → w.length = n) :
    Commits a b := by
  intro s u r u' v' h1 h2 h3 _
  refine .inl (prefix_eq ((List.prefix_append _ _).trans h3) ⟨r, h1.1.symm⟩ ?_)
  rw [h u' h2, h u h1.2.1]

theorem commits_chr {c : Char} {b : Regex} : Commits (chr c) b :=
  commits_fixed 1 fun w h => by simp [matches_chr.1 h]

theorem commits_cls {p : Char → Prop} {b : Regex} : Commits (cls p) b :=
  commits_fixed 1 fun w h => by obtain ⟨c, rfl, -⟩ := matches_cls.1 h; rfl

theorem commits_alt_chr {c d : Char} {b : Regex} : Commits (chr c ∣ chr d) b :=
  commits_fixed 1 fun w h => by
    rcases matches_alt.1 h with h | h <;> simp [matches_chr.1 h]

theorem commits_opt_cls {a b : Regex} {p : Char → Prop} (ha : ∀ w, a.Matches w ↔ ∃ c, w = [c] ∧ p c)
    (hb : Starts (¬ p ·) b) : Commits (opt a) b := by
  intro s u r u' v' h1 h2 h3 h4
  refine .inl ?_
  rcases matches_opt.1 h2 with h2 | rfl
  · obtain ⟨c, rfl, hc⟩ := (ha _).1 h2
    rcases matches_opt.1 h1.2.1 with h | rfl
    · obtain ⟨d, rfl, hd⟩ := (ha _).1 h
      exact prefix_eq ((List.prefix_append _ _).trans h3) ⟨r, h1.1.symm⟩ rfl
    · have := h1.2.2 [c] ((List.prefix_append _ _).trans h3) (matches_opt.2 (.inl h2))
      simp at this
  · obtain ⟨c, v, rfl, hc⟩ := hb v' h4
    rcases matches_opt.1 h1.2.1 with h | rfl
    · obtain ⟨d, rfl, hd⟩ := (ha _).1 h
      rw [h1.1] at h3
      simp at h3
      exact absurd hd (h3.1 ▸ hc)
    · rfl

theorem commits_opt_chr {c : Char} {b : Regex} (hb : Starts (¬ · = c) b) :
    Commits (opt (chr c)) b :=
  commits_opt_cls (p := (· = c)) (fun w => by simp [matches_chr]) hb

/-- A run of a class followed by something that starts outside of the class. -/
theorem commits_run {a b : Regex} {p : Char → Prop} (ha : ∀ w, a.Matches w → ∀ c ∈ w, p c)
    (hb : Starts (¬ p ·) b) : Commits a b := by
  intro s u r u' v' h1 h2 h3 h4
  refine .inl ?_
  obtain ⟨c, v, rfl, hc⟩ := hb v' h4
  have hle := h1.2.2 u' ((List.prefix_append _ _).trans h3) h2
  have hp : u' <+: u := List.prefix_of_prefix_length_le
    ((List.prefix_append _ _).trans h3) ⟨r, h1.1.symm⟩ hle
  obtain ⟨x, rfl⟩ := hp
  cases x with
  | nil => simp
  | cons d x =>
    rw [h1.1] at h3
    simp only [List.append_assoc, List.prefix_append_right_inj] at h3
    simp at h3
    exact absurd (ha _ h1.2.1 d (by simp)) (h3.1 ▸ hc)

theorem commits_star {p : Char → Prop} {b : Regex} (hb : Starts (¬ p ·) b) :
    Commits (star (cls p)) b :=
  commits_run (fun _ h => matches_star_cls.1 h) hb

theorem commits_plus {p : Char → Prop} {b : Regex} (hb : Starts (¬ p ·) b) :
    Commits (plus (cls p)) b :=
  commits_run (fun _ h => (matches_plus_cls.1 h).2) hb

theorem rec_alt_chr (c d : Char) : Rec (alt [Nom.char c, Nom.char d]) (chr c ∣ chr d) := by
  refine rec_alt (rec_char c) (rec_char d) ?_
  intro s u r v h1 _ h3
  rw [matches_chr.1 h1.2.1, matches_chr.1 h3]; simp

theorem Rec.congr {α : Type} {p : P Char α} {a b : Regex} (h : Rec p a)
    (e : ∀ w, a.Matches w ↔ b.Matches w) : Rec p b := by
  intro s
  rcases h s with ⟨w, r, x, h1, h2, h3, h4⟩ | ⟨q, k, h1, h2, h3⟩
  · exact .inl ⟨w, r, x, h1, h2, (e w).1 h3, fun w' hw h => h4 w' hw ((e w').2 h)⟩
  · exact .inr ⟨q, k, h1, h2, fun w hw h => h3 w hw ((e w).2 h)⟩

/-! ## The literals -/

theorem rec_dec : Rec (seq (Nom.opt (Nom.char '-')) fun _ =>
    seq (oneOf c!"123456789") fun _ =>
    seq (takeWhile Char.isDigit) fun _ => Nom.ret ()) Regex.dec := by
  refine rec_seq (rec_opt (rec_char '-')) (fun _ => rec_seq ?_ (fun _ => rec_map
    (rec_takeWhile isDigit_iff)) commits_cls)
    (commits_opt_chr (starts_seq (starts_cls ?_)))
  · refine rec_cls rfl fun c s => ?_
    have : c ∈ c!"123456789" ↔ '1' ≤ c ∧ c ≤ '9' := by
      constructor
      · intro h
        simp at h
        rcases h with rfl | rfl | rfl | rfl | rfl | rfl | rfl | rfl | rfl <;> decide
      · intro h
        simp only [Char.le_def, UInt32.le_iff_toNat_le] at h
        have : ∃ k, c.toNat = 49 + k ∧ k < 9 := ⟨c.toNat - 49, by
          simp at h; omega, by simp at h; omega⟩
        obtain ⟨k, h1, h2⟩ := this
        have : c = Char.ofNat (49 + k) := by
          rw [← h1]; exact (Char.ofNat_toNat c).symm
        subst this
        clear h h1
        revert k
        decide
    by_cases h : c ∈ c!"123456789"
    · exact .inl ⟨this.1 h, c, by simp only [oneOf, if_pos h]⟩
    · exact .inr ⟨fun h' => h (this.2 h'), .oneOf, by simp only [oneOf, if_neg h]⟩
  · rintro c ⟨h1, h2⟩ rfl
    exact absurd h1 (by decide)

theorem alt_chr_comm {c d : Char} {w : Str} :
    (chr c ∣ chr d).Matches w ↔ (chr d ∣ chr c).Matches w := by
  simp [matches_alt, or_comm]

theorem rec_hex : Rec (seq (Nom.opt (Nom.char '-')) fun _ =>
    seq (Nom.char '0') fun _ =>
    seq (alt [Nom.char 'x', Nom.char 'X']) fun _ =>
    seq (takeWhile isHexDigit) fun _ => Nom.ret ()) Regex.hex := by
  refine rec_seq (rec_opt (rec_char '-')) (fun _ => rec_seq (rec_char _) (fun _ => rec_seq
    ((rec_alt_chr _ _).congr fun _ => alt_chr_comm)
    (fun _ => rec_map (rec_takeWhile isHexDigit_iff)) commits_alt_chr) commits_chr)
    (commits_opt_chr (starts_seq (starts_chr (by decide))))

theorem rec_oct : Rec (seq (Nom.opt (Nom.char '-')) fun _ =>
    seq (Nom.char '0') fun _ =>
    seq (takeWhile isOctDigit) fun _ => Nom.ret ()) Regex.oct := by
  refine rec_seq (rec_opt (rec_char '-')) (fun _ => rec_seq (rec_char _) (fun _ =>
    rec_map (rec_takeWhile isOctDigit_iff)) commits_chr)
    (commits_opt_chr (starts_seq (starts_chr (by decide))))

theorem rec_word : Rec (seq (takeWhile1 Char.isAlpha) fun _ =>
    seq (takeWhile isIdentChar) fun _ => Nom.ret ()) Regex.word := by
  intro s
  -- the two runs are one letter followed by one run
  have key : ∀ c t, c.isAlpha = true → s = c :: t →
      (s.dropWhile Char.isAlpha).dropWhile isIdentChar = t.dropWhile isIdentChar := by
    rintro c t hc rfl
    simp only [List.dropWhile_cons_of_pos hc]
    clear hc
    induction t with
    | nil => rfl
    | cons d t ih =>
      by_cases hd : d.isAlpha
      · have : isIdentChar d = true := by
          rw [isIdentChar_iff]; rw [isAlpha_iff] at hd; grind
        simp [hd, this, ih]
      · simp [hd]
  cases s with
  | nil =>
    refine .inr ⟨[], .takeWhile1, rfl, List.suffix_refl _, ?_⟩
    intro w hw h
    obtain ⟨c, v, rfl, -⟩ := (starts_seq (starts_cls (f := fun _ => True) (by simp))) w h
    simp at hw
  | cons c t =>
    by_cases hc : c.isAlpha
    · refine .inl ⟨c :: t.takeWhile isIdentChar, t.dropWhile isIdentChar, (), ?_, by simp, ?_, ?_⟩
      · have := key c t hc rfl
        simp [Nom.seq, takeWhile1, takeWhile, Nom.ret, hc] at this ⊢
        exact this
      · exact .seq (u := [c]) (.cls ((isAlpha_iff c).1 hc))
          (matches_star_cls.2 fun x hx => (isIdentChar_iff x).1 (mem_takeWhile_imp hx))
      · intro w hw h
        obtain ⟨u, v, rfl, hu, hv⟩ := matches_seq.1 h
        obtain ⟨d, rfl, hd⟩ := matches_cls.1 hu
        simp at hw ⊢
        exact takeWhile_prefix hw.2 fun x hx => (isIdentChar_iff x).2 (matches_star_cls.1 hv x hx)
    · refine .inr ⟨c :: t, .takeWhile1, by simp [Nom.seq, takeWhile1, hc], List.suffix_refl _, ?_⟩
      intro w hw h
      obtain ⟨u, v, rfl, hu, hv⟩ := matches_seq.1 h
      obtain ⟨d, rfl, hd⟩ := matches_cls.1 hu
      simp at hw
      exact hc ((isAlpha_iff c).2 (hw.1 ▸ hd))

theorem rec_exp : Rec floatExp exponent :=
  rec_seq ((rec_alt_chr _ _).congr fun _ => alt_chr_comm) (fun _ =>
    rec_seq (rec_opt (rec_alt_chr _ _)) (fun _ => rec_map (rec_takeWhile1 isDigit_iff))
      (commits_opt_cls (p := fun c => c = '+' ∨ c = '-')
        (fun w => by simp only [matches_alt, matches_chr]; grind) (starts_plus (by
          rintro c ⟨h1, h2⟩ (rfl | rfl) <;> exact absurd h1 (by decide)))))
    commits_alt_chr

theorem exp_starts : Starts (fun c => c = 'E' ∨ c = 'e') exponent :=
  starts_seq (starts_alt (starts_chr (.inl rfl)) (starts_chr (.inr rfl)))

theorem not_digit_of_exp (c : Char) (h : c = 'E' ∨ c = 'e') : ¬ ('0' ≤ c ∧ c ≤ '9') := by
  rcases h with rfl | rfl <;> decide

theorem Starts.mono {f g : Char → Prop} {a : Regex} (h : Starts f a) (hfg : ∀ c, f c → g c) :
    Starts g a := by
  intro v hv
  obtain ⟨c, v', e, hc⟩ := h v hv
  exact ⟨c, v', e, hfg c hc⟩

theorem not_digit_dot : ¬ ('0' ≤ '.' ∧ '.' ≤ '9') := by decide

theorem rec_intDot : Rec floatIntDot (plus digit ⬝ chr '.' ⬝ star digit) :=
  rec_seq (rec_takeWhile1 isDigit_iff) (fun _ => rec_seq (rec_char _) (fun _ =>
    rec_map (rec_takeWhile isDigit_iff)) commits_chr)
    (commits_plus (starts_seq (starts_chr not_digit_dot)))

theorem rec_dotInt : Rec floatDotInt (star digit ⬝ chr '.' ⬝ plus digit) :=
  rec_seq (rec_takeWhile isDigit_iff) (fun _ => rec_seq (rec_char _) (fun _ =>
    rec_map (rec_takeWhile1 isDigit_iff)) commits_chr)
    (commits_star (starts_seq (starts_chr not_digit_dot)))

/-- `[0-9]+\.[0-9]*|[0-9]*\.[0-9]+` -/
def mantissa : Regex := plus digit ⬝ chr '.' ⬝ star digit ∣ star digit ⬝ chr '.' ⬝ plus digit

theorem mantissa_iff {w : Str} : mantissa.Matches w ↔ ∃ u v, w = u ++ '.' :: v ∧
    (∀ c ∈ u, '0' ≤ c ∧ c ≤ '9') ∧ (∀ c ∈ v, '0' ≤ c ∧ c ≤ '9') ∧ (u ≠ [] ∨ v ≠ []) := by
  simp only [mantissa, matches_alt, matches_seq, digit, matches_plus_cls, matches_star_cls,
    matches_chr]
  constructor
  · rintro (⟨u, v, rfl, ⟨h1, h2⟩, _, y, rfl, rfl, h3⟩ | ⟨u, v, rfl, h1, _, y, rfl, rfl, h2, h3⟩)
    · exact ⟨u, y, rfl, h2, h3, .inl h1⟩
    · exact ⟨u, y, rfl, h1, h3, .inr h2⟩
  · rintro ⟨u, v, rfl, h1, h2, h3 | h3⟩
    · exact .inl ⟨u, '.' :: v, rfl, ⟨h3, h1⟩, ['.'], v, rfl, rfl, h2⟩
    · exact .inr ⟨u, '.' :: v, rfl, h1, ['.'], v, rfl, rfl, h3, h2⟩

theorem digits_dot_inj {f : Char → Prop} {u u' : Str} {d d' : Char} {x x' : Str}
    (h : u ++ d :: x = u' ++ d' :: x') (hu : ∀ c ∈ u, f c) (hu' : ∀ c ∈ u', f c)
    (hd : ¬ f d) (hd' : ¬ f d') : u = u' ∧ d = d' ∧ x = x' := by
  induction u generalizing u' with
  | nil =>
    cases u' with
    | nil => simpa using h
    | cons c u' => simp at h; exact absurd (hu' c (by simp)) (h.1 ▸ hd)
  | cons c u ih =>
    cases u' with
    | nil => simp at h; exact absurd (hu c (by simp)) (h.1 ▸ hd')
    | cons c' u' =>
      simp at h
      obtain ⟨rfl, h⟩ := h
      obtain ⟨rfl, h'⟩ := ih h (fun x hx => hu x (by simp [hx])) (fun x hx => hu' x (by simp [hx]))
      exact ⟨rfl, h'⟩

theorem rec_mantissa : Rec (alt [floatIntDot, floatDotInt]) mantissa := by
  refine rec_alt rec_intDot rec_dotInt ?_
  intro s u r v h1 h2 h3
  -- a match of the second form is one of the first form, too
  refine h1.2.2 v h2 ?_
  obtain ⟨rfl, hu, -⟩ := h1
  simp only [matches_seq, digit, matches_plus_cls, matches_star_cls, matches_chr] at hu h3 ⊢
  obtain ⟨d, _, rfl, ⟨h1, h4⟩, _, y, rfl, rfl, h5⟩ := hu
  obtain ⟨d', _, rfl, h6, _, y', rfl, rfl, h7⟩ := h3
  obtain ⟨t, ht⟩ := h2
  simp at ht
  obtain ⟨rfl, -, ht⟩ := digits_dot_inj ht h6 h4 not_digit_dot not_digit_dot
  exact ⟨d', '.' :: y', rfl, ⟨h1, h6⟩, ['.'], y', rfl, rfl, h7.2⟩

theorem commits_mantissa : Commits mantissa (opt exponent) := by
  intro s u r u' v' h1 h2 h3 h4
  have hu := h1.2.1
  have hle := h1.2.2 u' ((List.prefix_append _ _).trans h3) h2
  rcases matches_opt.1 h4 with h4 | rfl
  · obtain ⟨c, v, rfl, hc⟩ := exp_starts v' h4
    refine .inl ?_
    rw [mantissa_iff] at hu h2
    obtain ⟨x, y, rfl, hx, hy, -⟩ := hu
    obtain ⟨x', y', rfl, hx', hy', -⟩ := h2
    obtain ⟨t, ht⟩ := h3
    rw [h1.1] at ht
    simp at ht
    obtain ⟨rfl, -, ht⟩ := digits_dot_inj ht hx' hx not_digit_dot not_digit_dot
    simp at hle
    have : y' <+: y := List.prefix_of_prefix_length_le (l₃ := y ++ r) ⟨_, ht⟩ ⟨_, rfl⟩ hle
    obtain ⟨z, rfl⟩ := this
    cases z with
    | nil => simp
    | cons e z =>
      simp at ht
      have := hy e (by simp)
      exact absurd this (not_digit_of_exp e (ht.1 ▸ hc))
  · exact .inr ⟨matches_opt.2 (.inr rfl), by simpa using hle⟩

theorem not_minus_of_digit (c : Char) (h : '0' ≤ c ∧ c ≤ '9') : ¬ c = '-' := by
  rintro rfl; exact absurd h.1 (by decide)

theorem rec_float : Rec (seq (Nom.opt (Nom.char '-')) fun _ =>
    seq (alt [
      seq (alt [floatIntDot, floatDotInt]) fun _ =>
        seq (Nom.opt floatExp) fun _ => Nom.ret (),
      seq (takeWhile1 Char.isDigit) fun _ =>
        seq floatExp fun _ => Nom.ret ()]) fun _ => Nom.ret ()) Regex.float := by
  refine rec_seq (rec_opt (rec_char '-')) (fun _ => rec_map (rec_alt
    (rec_seq rec_mantissa (fun _ => rec_map (rec_opt rec_exp)) commits_mantissa)
    (rec_seq (rec_takeWhile1 isDigit_iff) (fun _ => rec_map rec_exp)
      (commits_plus (exp_starts.mono not_digit_of_exp))) ?_)) (commits_opt_chr ?_)
  · intro s u r v h1 h2 h3
    exfalso
    obtain ⟨rfl, hu, -⟩ := h1
    obtain ⟨m, e, rfl, hm, -⟩ := matches_seq.1 hu
    obtain ⟨x, y, rfl, hx, -⟩ := mantissa_iff.1 hm
    obtain ⟨d, f, rfl, hd, hf⟩ := matches_seq.1 h3
    obtain ⟨c, f', rfl, hc⟩ := exp_starts _ hf
    obtain ⟨t, ht⟩ := h2
    simp at ht
    have := digits_dot_inj ht (matches_plus_cls.1 hd).2 hx (not_digit_of_exp c hc) not_digit_dot
    rw [this.2.1] at hc
    exact absurd hc (by decide)
  · refine starts_alt (starts_seq (starts_alt (starts_seq (starts_plus not_minus_of_digit))
      (starts_star_seq not_minus_of_digit (starts_seq (starts_chr (by decide))))))
      (starts_seq (starts_plus not_minus_of_digit))

/-! ## `ws!(recognize!(..))` -/

theorem recognize_ok {α : Type} {p : P Char α} {s r w : Str} {a : α} (h : p s = .ok r a)
    (hs : s = w ++ r) : recognize p s = .ok r w := by
  subst hs
  simp [recognize, h]

theorem rec_ident : Rec (seq (Nom.opt (Nom.char '_')) fun _ =>
    seq (recognize (seq (takeWhile1 Char.isAlpha) fun _ =>
      seq (takeWhile isIdentChar) fun _ => Nom.ret ())) fun id => Nom.ret id)
    Regex.identifier := by
  refine rec_seq (rec_opt (rec_char '_')) (fun _ => rec_map ?_) (commits_opt_chr ?_)
  · intro s
    rcases rec_word s with ⟨w, r, a, h1, h2⟩ | ⟨q, k, h1, h2⟩
    · exact .inl ⟨w, r, _, recognize_ok h1 h2.1, h2⟩
    · exact .inr ⟨q, k, by simp [recognize, h1], h2⟩
  · refine starts_seq (starts_cls ?_)
    rintro c h rfl
    revert h; decide

end Verif
