import Verif.Spec.Nesting
import Verif.Proof.CostBound
import Verif.Proof.Number
import Verif.Proof.Sound

/-!
# Nesting of brackets and recursion

Every recursive call of the grammar comes after an opening round or angle bracket that is not yet closed.
-/

namespace Verif
open Nom Spec

/-! ## The nesting of a text -/

/-- Characters that are not brackets, quotes or slashes. -/
def NoBracket (c : Char) : Prop := c ∉ ['(', '<', ')', '>', '"', '/']

theorem nest_plain {c : Char} (hc : NoBracket c) (s : Str) : nest (c :: s) = nest s := by
  simp [NoBracket] at hc
  unfold nest
  rw [nesting] <;> grind

theorem nest_plains {w : Str} (hw : ∀ c ∈ w, NoBracket c) (s : Str) : nest (w ++ s) = nest s := by
  induction w with
  | nil => rfl
  | cons c w ih =>
    rw [List.cons_append, nest_plain (hw c (by simp)), ih fun d hd => hw d (by simp [hd])]

theorem nesting_string {v : Str} (hv : '"' ∉ v) (s : Str) : nesting .string (v ++ '"' :: s) = nest s := by
  induction v with
  | nil => simp [nesting, nest]
  | cons c v ih =>
    simp at hv
    rw [List.cons_append, nesting]
    · exact ih hv.2
    · intro h; exact hv.1 h.symm

theorem nest_string {v : Str} (hv : '"' ∉ v) (s : Str) : nest ('"' :: v ++ ['"'] ++ s) = nest s := by
  have := nesting_string hv s
  simp [nest, nesting] at *
  exact this

theorem nesting_line {b : Str} (hb : '\n' ∉ b) (s : Str) : nesting .lineComment (b ++ '\n' :: s) = nest s := by
  induction b with
  | nil => simp [nesting, nest]
  | cons c v ih =>
    simp at hb
    rw [List.cons_append, nesting]
    · exact ih hb.2
    · intro h; exact hb.1 h.symm

theorem nesting_block {b : Str} (hb : ¬ c!"*/" <:+: b) (s : Str) :
    nesting .blockComment (b ++ '*' :: '/' :: s) = nest s := by
  induction b with
  | nil => simp [nesting, nest]
  | cons c v ih =>
    have hv : ¬ c!"*/" <:+: v := fun h => hb (h.trans (List.suffix_cons c v).isInfix)
    rw [List.cons_append, nesting]
    · exact ih hv
    · rintro s' rfl h
      cases v with
      | nil => simp at h
      | cons d v =>
        simp at h
        obtain ⟨rfl, -⟩ := h
        exact hb ⟨[], v, rfl⟩

theorem nest_trivia {t : Str} (ht : Trivia t) (s : Str) : nest (t ++ s) = nest s := by
  induction ht with
  | nil => rfl
  | white hc _ ih =>
    rw [List.cons_append, nest_plain, ih]
    simp [NoBracket] at *
    grind
  | @line body t hb _ ih =>
    have := nesting_line hb (t ++ s)
    rw [← ih, ← this]
    simp [nest, nesting]
  | @block body t hb _ ih =>
    have := nesting_block hb (t ++ s)
    rw [← ih, ← this]
    simp [nest, nesting]

theorem nest_strip (s : Str) : nest (strip s) = nest s := by
  obtain ⟨t, h, ht, -⟩ := skips_strip s
  conv => rhs; rw [h]
  rw [nest_trivia ht]

theorem plain_ident {c : Char} (h : isIdentChar c = true) : NoBracket c := by
  rintro hc
  simp at hc
  rcases hc with rfl | rfl | rfl | rfl | rfl | rfl <;> revert h <;> decide

theorem plain_num {c : Char} (h : NumChar c) : NoBracket c := by
  rintro hc
  simp at hc
  rcases hc with rfl | rfl | rfl | rfl | rfl | rfl <;> revert h <;> unfold NumChar IsDig <;> decide

/-- A leaf that is not a round or angle bracket. -/
class Flat {α : Type} (l : Leaf α) : Prop where
  flat : ∀ w v, LeafText l w v → ∀ s, nest (w ++ s) = nest s

theorem flat_number {w : Str} (h : Number w) (s : Str) : nest (w ++ s) = nest s :=
  nest_plains (fun c hc => plain_num (h.chars c hc)) s

instance : Flat .dec := ⟨fun _ _ h s => flat_number (h.1 ▸ .inl h.2) s⟩
instance : Flat .hex := ⟨fun _ _ h s => flat_number (h.1 ▸ .inr (.inl h.2)) s⟩
instance : Flat .oct := ⟨fun _ _ h s => flat_number (h.1 ▸ .inr (.inr (.inl h.2))) s⟩
instance : Flat .float := ⟨fun _ _ h s => flat_number (h.1 ▸ .inr (.inr (.inr h.2))) s⟩
instance : Flat .string := ⟨fun _ _ h s => h.1 ▸ nest_string h.2 s⟩
instance (k : Kw) : Flat (.kw k) := ⟨fun w _ h s => by
  have h : w = k.text := h
  subst h
  refine nest_plains (fun c hc => plain_ident ?_) s
  revert hc; revert c
  cases k <;> decide⟩
instance : Flat .ident := ⟨fun w v h s => by
  obtain ⟨h1, h2⟩ := h
  obtain ⟨c, v', rfl, h3, h4⟩ := word_iff.1 h2
  have h5 : ∀ d ∈ c :: v', isIdentChar d = true := by
    intro d hd
    rcases List.mem_cons.1 hd with rfl | hd
    · simp [isIdentChar, Char.isAlphanum, h3]
    · exact h4 d hd
  refine nest_plains (fun d hd => plain_ident ?_) s
  rcases h1 with rfl | rfl
  · exact h5 d hd
  · rcases List.mem_cons.1 hd with rfl | hd
    · decide
    · exact h5 d hd⟩

/-- A symbol that is not a round or angle bracket. -/
class FlatPunct (p : Punct) : Prop where
  flat : ∀ c ∈ p.text, NoBracket c

instance : FlatPunct .openBracket := ⟨by unfold NoBracket; decide⟩
instance : FlatPunct .closeBracket := ⟨by unfold NoBracket; decide⟩
instance : FlatPunct .openBrace := ⟨by unfold NoBracket; decide⟩
instance : FlatPunct .closeBrace := ⟨by unfold NoBracket; decide⟩
instance : FlatPunct .comma := ⟨by unfold NoBracket; decide⟩
instance : FlatPunct .minus := ⟨by unfold NoBracket; decide⟩
instance : FlatPunct .dot := ⟨by unfold NoBracket; decide⟩
instance : FlatPunct .ellipsis := ⟨by unfold NoBracket; decide⟩
instance : FlatPunct .colon := ⟨by unfold NoBracket; decide⟩
instance : FlatPunct .semiColon := ⟨by unfold NoBracket; decide⟩
instance : FlatPunct .assign := ⟨by unfold NoBracket; decide⟩
instance : FlatPunct .qMark := ⟨by unfold NoBracket; decide⟩
instance : FlatPunct .asterisk := ⟨by unfold NoBracket; decide⟩

instance (p : Punct) [h : FlatPunct p] : Flat (.punct p) := ⟨fun w _ hw s => by
  have hw : w = p.text := hw
  subst hw
  exact nest_plains h.flat s⟩

theorem flat_leaf {α : Type} {l : Leaf α} [h : Flat l] {s r : Str} {a : α} (e : charLeaf α l s = .ok r a) :
    nest r = nest s := by
  obtain ⟨w, e, h1, h2, -, rfl⟩ := charLeaf_ok_iff.1 e
  rw [nest_strip, ← nest_strip s, h1, h.flat _ _ h2]

theorem open_leaf {p : Punct} (hp : p = .openParen ∨ p = .lessThan) {s r : Str} {a : Unit}
    (e : charLeaf _ (.punct p) s = .ok r a) : nest r + 1 = nest s := by
  obtain ⟨w, e, h1, h2, -, rfl⟩ := charLeaf_ok_iff.1 e
  have h2 : w = p.text := h2
  subst h2
  rw [nest_strip, ← nest_strip s, h1]
  rcases hp with rfl | rfl <;> simp [Punct.text, nest, nesting]

theorem close_leaf {p : Punct} (hp : p = .closeParen ∨ p = .greaterThan) {s r : Str} {a : Unit}
    (e : charLeaf _ (.punct p) s = .ok r a) : nest r ≤ nest s + 1 := by
  obtain ⟨w, e, h1, h2, -, rfl⟩ := charLeaf_ok_iff.1 e
  have h2 : w = p.text := h2
  subst h2
  rw [nest_strip, ← nest_strip s, h1]
  rcases hp with rfl | rfl <;> simp [Punct.text, nest, nesting] <;> omega

/-! ## The judgement -/

/-- `Tame l g l' w k`: `g`, begun inside `l` brackets, ends inside `l'` brackets; its recursive calls are inside at
least one; it tries at most `w` terminals for each way through its at most `k` nested repetitions, where a recursive
call counts as one terminal. -/
class inductive Tame : {α : Type} → Nat → G α → outParam Nat → outParam Nat → Nat → Prop where
  | ret {α : Type} {l k : Nat} {a : α} : Tame l (.ret a) l 0 k
  | leaf {α : Type} {l k : Nat} {x : Leaf α} (h : Flat x) : Tame l (.leaf x) l 1 k
  | openB {l k : Nat} {p : Punct} (h : p = .openParen ∨ p = .lessThan) : Tame l (.leaf (.punct p)) (l + 1) 1 k
  | closeB {l k : Nat} {p : Punct} (h : p = .closeParen ∨ p = .greaterThan) : Tame (l + 1) (.leaf (.punct p)) l 1 k
  | bind {α β : Type} {l m l' w w' k : Nat} {st : Bool} {g : G α} {f : α → G β} (hs : Guarded true g st)
      (hg : Tame l g m w k) (hf : ∀ a, Tame m (f a) l' w' k) : Tame l (.bind g f) l' (w + w') k
  | orElse {α : Type} {l l' w w' k : Nat} {g h : G α} (hg : Tame l g l' w k) (hh : Tame l h l' w' k) :
      Tame l (.orElse g h) l' (w + w') k
  | altEnd {α : Type} {l l' k : Nat} : Tame l (.altEnd (α := α)) l' 0 k
  | opt {α : Type} {l w k : Nat} {g : G α} (hg : Tame l g l w k) : Tame l (.opt g) l w k
  | many0 {α : Type} {l w k : Nat} {st : Bool} {g : G α} (hs : Guarded true g st) (hg : Tame l g l w k) :
      Tame l (.many0 g) l w (k + 1)
  | separatedList {α β : Type} {l w w' k : Nat} {st st' : Bool} {sep : G β} {g : G α} (hs : Guarded true sep st)
      (hs' : Guarded true g st') (hsep : Tame l sep l w k) (hg : Tame l g l w' k) :
      Tame l (.separatedList sep g) l (w + w') (k + 1)
  | separatedNonemptyList {α β : Type} {l w w' k : Nat} {st st' : Bool} {sep : G β} {g : G α} (hs : Guarded true sep st)
      (hs' : Guarded true g st') (hsep : Tame l sep l w k) (hg : Tame l g l w' k) :
      Tame l (.separatedNonemptyList sep g) l (w + w') (k + 1)
  | call {α : Type} {l k : Nat} {n : NT α} : Tame (l + 1) (.call n) (l + 1) 1 k
  | mono {α : Type} {l l' w w' k : Nat} {g : G α} (h : Tame l g l' w k) (hw : w ≤ w') : Tame l g l' w' k

/-! ## Effect on the nesting -/

theorem chain_le {α : Type} {p : P Char α} (hp : ∀ s r a, p s = .ok r a → nest r ≤ nest s) {s r : Str} {as : List α}
    (h : Chain p s as r) : nest r ≤ nest s := by
  induction h with
  | nil => exact Nat.le_refl _
  | cons h _ _ ih => exact Nat.le_trans ih (hp _ _ _ h)

theorem sepChain_le {α β : Type} {sep : P Char β} {p : P Char α} (hs : ∀ s r a, sep s = .ok r a → nest r ≤ nest s)
    (hp : ∀ s r a, p s = .ok r a → nest r ≤ nest s) {s r : Str} {as : List α} (h : SepChain sep p s as r) :
    nest r ≤ nest s := by
  induction h with
  | nil => exact Nat.le_refl _
  | cons h _ h' _ ih => exact Nat.le_trans ih (Nat.le_trans (hp _ _ _ h') (hs _ _ _ h))

theorem Tame.effect {nt : ∀ α, NT α → P Char α} (hnt : ∀ α N s r a, nt α N s = .ok r a → nest r ≤ nest s)
    {α : Type} {l l' w k : Nat} {g : G α} (hg : Tame l g l' w k) :
    ∀ s r a, g.run charLeaf nt s = .ok r a → nest r + l' ≤ nest s + l := by
  induction hg with
  | ret => intro s r a h; cases h; exact Nat.le_refl _
  | leaf h => intro s r a e; rw [flat_leaf e]; exact Nat.le_refl _
  | openB h => intro s r a e; have := open_leaf h e; omega
  | closeB h => intro s r a e; have := close_leaf h e; omega
  | bind _ _ _ ih1 ih2 =>
    intro s r a h
    simp only [G.run, Nom.seq] at h
    split at h <;> try (simp at h)
    next e =>
    have := ih1 _ _ _ e
    have := ih2 _ _ _ _ h
    omega
  | orElse _ _ ih1 ih2 =>
    intro s r a h
    simp only [G.run, Nom.orElse] at h
    split at h
    · exact ih2 _ _ _ h
    · exact ih1 _ _ _ h
  | altEnd => intro s r a h; simp [G.run, Nom.altEnd] at h
  | opt _ ih =>
    intro s r a h
    simp only [G.run, Nom.opt] at h
    split at h <;> try (simp at h)
    · obtain ⟨rfl, -⟩ := h; next e => exact ih _ _ _ e
    · obtain ⟨rfl, -⟩ := h; exact Nat.le_refl _
  | many0 _ _ ih =>
    intro s r a h
    have := chain_le (fun s r a h => Nat.le_of_add_le_add_right (ih s r a h)) (many0Loop_chain h)
    omega
  | separatedList _ _ _ _ ih1 ih2 =>
    intro s r a h
    simp only [G.run, Nom.separatedList] at h
    split at h <;> try (simp at h)
    · obtain ⟨rfl, -⟩ := h; exact Nat.le_refl _
    · next e =>
      split at h <;> try (simp at h)
      obtain ⟨as', h', rfl⟩ := consRes_ok.1 h
      have := ih2 _ _ _ e
      have := sepChain_le (fun s r a h => Nat.le_of_add_le_add_right (ih1 s r a h))
        (fun s r a h => Nat.le_of_add_le_add_right (ih2 s r a h)) (sepLoop_chain h')
      omega
  | separatedNonemptyList _ _ _ _ ih1 ih2 =>
    intro s r a h
    simp only [G.run, Nom.separatedNonemptyList] at h
    split at h <;> try (simp at h)
    next e =>
      split at h <;> try (simp at h)
      obtain ⟨as', h', rfl⟩ := consRes_ok.1 h
      have := ih2 _ _ _ e
      have := sepChain_le (fun s r a h => Nat.le_of_add_le_add_right (ih1 s r a h))
        (fun s r a h => Nat.le_of_add_le_add_right (ih2 s r a h)) (sepLoop_chain h')
      omega
  | call => intro s r a h; have := hnt _ _ _ _ _ h; omega
  | mono _ _ ih => exact ih

/-! ## Recursion only inside brackets -/

theorem many0Loop_congr {α : Type} {p p' : P Char α} (I : Str → Prop)
    (h : ∀ s, I s → p' s = p s ∧ ∀ r a, p s = .ok r a → I r) {n : Nat} {s : Str} (hs : I s) :
    many0Loop p' n s = many0Loop p n s := by
  induction n generalizing s with
  | zero => rfl
  | succ n ih =>
    simp only [many0Loop, (h s hs).1]
    split <;> try rfl
    next e =>
    split
    · rfl
    · rw [ih ((h s hs).2 _ _ e)]

theorem sepLoop_congr {α β : Type} {p p' : P Char α} {q q' : P Char β} (I : Str → Prop)
    (h : ∀ s, I s → p' s = p s ∧ ∀ r a, p s = .ok r a → I r)
    (hq : ∀ s, I s → q' s = q s ∧ ∀ r a, q s = .ok r a → I r) {n : Nat} {s : Str} (hs : I s) :
    sepLoop q' p' n s = sepLoop q p n s := by
  induction n generalizing s with
  | zero => rfl
  | succ n ih =>
    simp only [sepLoop, (hq s hs).1]
    split <;> try rfl
    next e =>
    split
    · rfl
    · have hi := (hq s hs).2 _ _ e
      rw [(h _ hi).1]
      split <;> try rfl
      next e' =>
      split
      · rfl
      · rw [ih ((h _ hi).2 _ _ e')]

theorem Tame.agree {nt nt' : ∀ α, NT α → P Char α} (hnt : ∀ α N s r a, nt α N s = .ok r a → nest r ≤ nest s)
    {d : Nat} (h : ∀ α N s, nest s < d → nt' α N s = nt α N s)
    {α : Type} {l l' w k : Nat} {g : G α} (hg : Tame l g l' w k) :
    ∀ s, nest s + l ≤ d → g.run charLeaf nt' s = g.run charLeaf nt s := by
  induction hg with
  | ret => intro s hs; rfl
  | leaf h => intro s hs; rfl
  | openB h => intro s hs; rfl
  | closeB h => intro s hs; rfl
  | bind _ hg _ ih1 ih2 =>
    intro s hs
    simp only [G.run, Nom.seq]
    rw [ih1 s hs]
    split
    · next e => have := hg.effect hnt _ _ _ e; exact ih2 _ _ (by omega)
    · rfl
    · rfl
  | orElse _ _ ih1 ih2 =>
    intro s hs
    simp only [G.run, Nom.orElse]
    rw [ih1 s hs, ih2 s hs]
  | altEnd => intro s hs; rfl
  | opt _ ih =>
    intro s hs
    simp only [G.run, Nom.opt]
    rw [ih s hs]
  | @many0 α l w k st g _ hg ih =>
    intro s hs
    exact many0Loop_congr (fun s => nest s + l ≤ d)
      (fun s hs => ⟨ih s hs, fun r a e => by have := hg.effect hnt _ _ _ e; omega⟩) hs
  | @separatedList α β l w w' k st st' sep g _ _ hsep hg ih1 ih2 =>
    intro s hs
    simp only [G.run, Nom.separatedList]
    rw [ih2 s hs]
    split <;> try rfl
    next e =>
    split
    · rfl
    · congr 1
      refine sepLoop_congr (fun s => nest s + l ≤ d)
        (fun s hs => ⟨ih2 s hs, fun r a e => by have := hg.effect hnt _ _ _ e; omega⟩)
        (fun s hs => ⟨ih1 s hs, fun r a e => by have := hsep.effect hnt _ _ _ e; omega⟩) ?_
      have := hg.effect hnt _ _ _ e
      omega
  | @separatedNonemptyList α β l w w' k st st' sep g _ _ hsep hg ih1 ih2 =>
    intro s hs
    simp only [G.run, Nom.separatedNonemptyList]
    rw [ih2 s hs]
    split <;> try rfl
    next e =>
    split
    · rfl
    · congr 1
      refine sepLoop_congr (fun s => nest s + l ≤ d)
        (fun s hs => ⟨ih2 s hs, fun r a e => by have := hg.effect hnt _ _ _ e; omega⟩)
        (fun s hs => ⟨ih1 s hs, fun r a e => by have := hsep.effect hnt _ _ _ e; omega⟩) ?_
      have := hg.effect hnt _ _ _ e
      omega
  | call => intro s hs; exact h _ _ s (by omega)
  | mono _ _ ih => exact ih

section
variable {W K : Nat} (hb : ∀ (α : Type) (N : NT α), ∃ l w k, Tame l (G.body N) l w k)

include hb

theorem ntRun_nest (n : Nat) (α : Type) (N : NT α) (s r : Str) (a : α)
    (h : ntRun charLeaf n α N s = .ok r a) : nest r ≤ nest s := by
  induction n generalizing α s r with
  | zero => simp [ntRun] at h
  | succ n ih =>
    obtain ⟨l, w, k, ht⟩ := hb α N
    have := ht.effect (nt := ntRun charLeaf n) (fun α N s r a h => ih α N s r a h) s r a h
    omega

theorem ntLim_nest (α : Type) (N : NT α) (s r : Str) (a : α)
    (h : ntLim charLeaf α N s = .ok r a) : nest r ≤ nest s := ntRun_nest hb _ α N s r a h

end

theorem ntRun_agree (hb : ∀ (α : Type) (N : NT α), ∃ w k, Tame 0 (G.body N) 0 w k) (n : Nat) (α : Type) (N : NT α)
    (s : Str) (hs : nest s < n) : ntRun charLeaf n α N s = ntLim charLeaf α N s := by
  induction n generalizing α s with
  | zero => omega
  | succ n ih =>
    obtain ⟨w, k, ht⟩ := hb α N
    rw [ntLim_eq charLeaf_fine]
    exact ht.agree (ntLim_nest fun α N => ⟨0, hb α N⟩) (fun α N s hs => ih α N s hs) s (by omega)

/-! ## Cost -/

/-- Recursive calls on texts of at most `n` characters and nesting less than `d` try at most `M` terminals. -/
def CheapNest (d n M : Nat) : Prop :=
  ∀ (α : Type) (N : NT α) (s : Str) (k : Nat) (x : Res Char α), nest s < d → s.length ≤ n →
    Runs charLeaf (.call N) s k x → k ≤ M

theorem Tame.effect' (hb : ∀ (α : Type) (N : NT α), ∃ w k, Tame 0 (G.body N) 0 w k) {α : Type} {l l' w k : Nat}
    {g : G α} (hg : Tame l g l' w k) {st : Bool} (hs : Guarded true g st) {s r : Str} {c : Nat} {a : α}
    (h : Runs charLeaf g s c (.ok r a)) : nest r + l' ≤ nest s + l := by
  obtain ⟨d, hd⟩ := Runs.parse charLeaf_fine hs s
  have := (Runs.det hd _ _ h).2
  exact hg.effect (ntLim_nest fun α N => ⟨0, hb α N⟩) s r a this.symm

section
variable {d n : Nat} (hb : ∀ (α : Type) (N : NT α), ∃ w k, Tame 0 (G.body N) 0 w k)

include hb

theorem many0_cost {α : Type} {l w k : Nat} {st : Bool} {g : G α} (hs : Guarded true g st) (hg : Tame l g l w k)
    {B : Nat} (hB : ∀ s : Str, nest s + l ≤ d → s.length ≤ n → ∀ c x, Runs charLeaf g s c x → c ≤ B) (m : Nat) :
    ∀ s : Str, s.length ≤ m → nest s + l ≤ d → s.length ≤ n → ∀ c x, Runs charLeaf (.many0 g) s c x →
      c ≤ (m + 1) * B := by
  induction m with
  | zero =>
    intro s hm hd hn c x h
    have := Runs.inv h
    simp only [Runs.Inv] at this
    rcases this with ⟨r, a, d, e, y, h1, h3, -⟩ | ⟨a, h1, -⟩ | ⟨p, kk, h1, -⟩ | ⟨e, -, h1, -⟩
    · have := suffix_lt (runs_fine hs h1).1 h3
      omega
    all_goals simpa using hB s hd hn _ _ h1
  | succ m ih =>
    intro s hm hd hn c x h
    have := Runs.inv h
    simp only [Runs.Inv] at this
    rw [Nat.succ_mul]
    rcases this with ⟨r, a, d, e, y, h1, h3, h4, rfl, -⟩ | ⟨a, h1, -⟩ | ⟨p, kk, h1, -⟩ | ⟨e, -, h1, -⟩
    · have h5 := suffix_lt (runs_fine hs h1).1 h3
      have h6 := hg.effect' hb hs h1
      have h7 := ih r (by omega) (by omega) (by omega) _ _ h4
      have h8 := hB s hd hn _ _ h1
      omega
    all_goals exact Nat.le_trans (hB s hd hn _ _ h1) (by omega)

theorem tail_cost {α β : Type} {l w w' k : Nat} {st st' : Bool} {sep : G β} {g : G α} (hs : Guarded true sep st)
    (hs' : Guarded true g st') (hsep : Tame l sep l w k) (hg : Tame l g l w' k) {A B : Nat}
    (hA : ∀ s : Str, nest s + l ≤ d → s.length ≤ n → ∀ c x, Runs charLeaf sep s c x → c ≤ A)
    (hB : ∀ s : Str, nest s + l ≤ d → s.length ≤ n → ∀ c x, Runs charLeaf g s c x → c ≤ B) (m : Nat) :
    ∀ s : Str, s.length ≤ m → nest s + l ≤ d → s.length ≤ n → ∀ c x, RunsTail charLeaf sep g s c x →
      c ≤ (m + 1) * (A + B) := by
  induction m with
  | zero =>
    intro s hm hd hn c x h
    have h0 : ∀ r b k, Runs charLeaf sep s k (.ok r b) → r ≠ s → False := fun r b k h1 h2 => by
      have := suffix_lt (runs_fine hs h1).1 h2
      omega
    have h2 : ∀ k x, Runs charLeaf sep s k x → k ≤ (0 + 1) * (A + B) := fun k x hr => by
      have := hA s hd hn k x hr
      omega
    cases h with
    | noSep h => exact h2 _ _ h
    | sepErr h => exact h2 _ _ h
    | sepEmpty h => exact h2 _ _ h
    | noElem h hne => exact (h0 _ _ _ h hne).elim
    | elemErr h hne => exact (h0 _ _ _ h hne).elim
    | back h hne => exact (h0 _ _ _ h hne).elim
    | more h hne => exact (h0 _ _ _ h hne).elim
  | succ m ih =>
    intro s hm hd hn c x h
    rw [Nat.succ_mul]
    have h1 := hA s hd hn
    have h2 : ∀ r b k, Runs charLeaf sep s k (.ok r b) → r ≠ s → r.length < s.length ∧
        nest r + l ≤ d ∧ ∀ k x, Runs charLeaf g r k x → k ≤ B := fun r b k h3 h4 => by
      have h5 := suffix_lt (runs_fine hs h3).1 h4
      have h6 := hsep.effect' hb hs h3
      exact ⟨h5, by omega, hB r (by omega) (by omega)⟩
    cases h with
    | noSep h => have := h1 _ _ h; omega
    | sepErr h => have := h1 _ _ h; omega
    | sepEmpty h => have := h1 _ _ h; omega
    | noElem h hne h' => have := h1 _ _ h; have := (h2 _ _ _ h hne).2.2 _ _ h'; omega
    | elemErr h hne h' => have := h1 _ _ h; have := (h2 _ _ _ h hne).2.2 _ _ h'; omega
    | back h hne h' => have := h1 _ _ h; have := (h2 _ _ _ h hne).2.2 _ _ h'; omega
    | more h hne h' hne2 h3 =>
      have h4 := h1 _ _ h
      obtain ⟨h5, h6, h7⟩ := h2 _ _ _ h hne
      have h8 := h7 _ _ h'
      have h9 := (runs_fine hs' h').1.length_le
      have h10 := hg.effect' hb hs' h'
      have := ih _ (by omega) (by omega) (by omega) _ _ h3
      omega

theorem seps_cost {α β : Type} {l w w' k : Nat} {st st' : Bool} {sep : G β} {g : G α} (hs : Guarded true sep st)
    (hs' : Guarded true g st') (hsep : Tame l sep l w k) (hg : Tame l g l w' k) {A B : Nat}
    (hA : ∀ s : Str, nest s + l ≤ d → s.length ≤ n → ∀ c x, Runs charLeaf sep s c x → c ≤ A)
    (hB : ∀ s : Str, nest s + l ≤ d → s.length ≤ n → ∀ c x, Runs charLeaf g s c x → c ≤ B) {s r : Str}
    (hd : nest s + l ≤ d) (hn : s.length ≤ n) {c e : Nat} {a : α} {y : Res Char (List α)}
    (h1 : Runs charLeaf g s c (.ok r a)) (h2 : r ≠ s) (h3 : RunsTail charLeaf sep g r e y) :
    c + e ≤ (n + 1) * (A + B) := by
  have h4 := suffix_lt (runs_fine hs' h1).1 h2
  have h5 := hg.effect' hb hs' h1
  have h6 := hB s hd hn _ _ h1
  obtain ⟨m, rfl⟩ : ∃ m, n = m + 1 := ⟨n - 1, by omega⟩
  have := tail_cost hb hs hs' hsep hg hA hB m r (by omega) (by omega) (by omega) _ _ h3
  rw [Nat.succ_mul]
  omega

theorem Tame.cost {M : Nat} (hM : 1 ≤ M) (hc : CheapNest d n M) {α : Type} {l l' w k : Nat} {g : G α}
    (hg : Tame l g l' w k) : ∀ s : Str, nest s + l ≤ d → s.length ≤ n → ∀ c x, Runs charLeaf g s c x →
      c ≤ w * ((n + 1) ^ k * M) := by
  have hpos : ∀ k, 1 ≤ (n + 1) ^ k * M := fun k => Nat.mul_pos (Nat.pow_pos (by omega)) hM
  have hM' : ∀ k, M ≤ (n + 1) ^ k * M := fun k => Nat.le_mul_of_pos_left _ (Nat.pow_pos (by omega))
  have hstep : ∀ k w, (n + 1) * (w * ((n + 1) ^ k * M)) = w * ((n + 1) ^ (k + 1) * M) := fun k w => by
    rw [Nat.pow_succ]; ac_rfl
  have hup : ∀ k w, w * ((n + 1) ^ k * M) ≤ w * ((n + 1) ^ (k + 1) * M) := fun k w => by
    rw [← hstep]; exact Nat.le_mul_of_pos_left _ (by omega)
  induction hg with
  | ret =>
    intro s hd hn c x h
    have := (Runs.inv h).1
    omega
  | @leaf _ _ k _ _ | @openB _ k _ _ | @closeB _ k _ _ =>
    intro s hd hn c x h
    have h1 := (Runs.inv h).1
    have := hpos k
    omega
  | @bind α β l m l' w w' k st g f hs hg hf ih1 ih2 =>
    intro s hd hn c x h
    rw [Nat.add_mul]
    have := Runs.inv h
    simp only [Runs.Inv] at this
    rcases this with ⟨r, a, d, e, h1, h2, rfl⟩ | ⟨e, h1, -⟩
    · have h3 := ih1 s hd hn _ _ h1
      have h4 := hg.effect' hb hs h1
      have h5 := (runs_fine hs h1).1.length_le
      have h6 := ih2 a r (by omega) (by omega) _ _ h2
      omega
    · have := ih1 s hd hn _ _ h1
      omega
  | orElse hg hh ih1 ih2 =>
    intro s hd hn c x h
    rw [Nat.add_mul]
    have := Runs.inv h
    simp only [Runs.Inv] at this
    rcases this with ⟨r, a, h1, -⟩ | ⟨p, k', d, e, h1, h2, rfl⟩ | ⟨e, -, h1, -⟩
    · have := ih1 s hd hn _ _ h1; omega
    · have := ih1 s hd hn _ _ h1; have := ih2 s hd hn _ _ h2; omega
    · have := ih1 s hd hn _ _ h1; omega
  | altEnd =>
    intro s hd hn c x h
    have := (Runs.inv h).1
    omega
  | opt hg ih =>
    intro s hd hn c x h
    have := Runs.inv h
    simp only [Runs.Inv] at this
    rcases this with ⟨r, a, h1, -⟩ | ⟨p, k', h1, -⟩ | ⟨e, -, h1, -⟩ <;> exact ih s hd hn _ _ h1
  | many0 hs hg ih =>
    intro s hd hn c x h
    rw [← hstep]
    exact many0_cost hb hs hg ih n s hn hd hn c x h
  | @separatedList α β l w w' k st st' sep g hs hs' hsep hg ih1 ih2 =>
    intro s hd hn c x h
    have h2 : ∀ c x, Runs charLeaf g s c x → c ≤ (w + w') * ((n + 1) ^ (k + 1) * M) := fun c x h => by
      have := ih2 s hd hn c x h
      have := hup k w'
      rw [Nat.add_mul]
      omega
    have := Runs.inv h
    simp only [Runs.Inv] at this
    rcases this with ⟨r, a, d, e, y, h1, h3, h4, rfl, -⟩ | ⟨a, h1, -⟩ | ⟨p, kk, h1, -⟩ | ⟨e, -, h1, -⟩
    · have := seps_cost hb hs hs' hsep hg ih1 ih2 hd hn h1 h3 h4
      rwa [← Nat.add_mul, hstep] at this
    all_goals exact h2 _ _ h1
  | @separatedNonemptyList α β l w w' k st st' sep g hs hs' hsep hg ih1 ih2 =>
    intro s hd hn c x h
    have h2 : ∀ c x, Runs charLeaf g s c x → c ≤ (w + w') * ((n + 1) ^ (k + 1) * M) := fun c x h => by
      have := ih2 s hd hn c x h
      have := hup k w'
      rw [Nat.add_mul]
      omega
    have := Runs.inv h
    simp only [Runs.Inv] at this
    rcases this with ⟨r, a, d, e, y, h1, h3, h4, rfl, -⟩ | ⟨a, h1, -⟩ | ⟨e, h1, -⟩
    · have := seps_cost hb hs hs' hsep hg ih1 ih2 hd hn h1 h3 h4
      rwa [← Nat.add_mul, hstep] at this
    all_goals exact h2 _ _ h1
  | @call α l k N =>
    intro s hd hn c x h
    have := hc _ N s c x (by omega) hn h
    have := hM' k
    omega
  | mono h hw ih => exact fun s hd hn c x h => Nat.le_trans (ih s hd hn c x h) (Nat.mul_le_mul_right _ hw)

end

theorem cheapNest {W K : Nat} (hW : 1 ≤ W) (hb : ∀ (α : Type) (N : NT α), Tame 0 (G.body N) 0 W K) (n d : Nat) :
    CheapNest d n ((W * (n + 1) ^ K) ^ d) := by
  induction d with
  | zero => intro α N s k x h; omega
  | succ d ih =>
    intro α N s k x hs hn h
    have h1 : Runs charLeaf (G.body N) s k x := Runs.inv h
    have := (hb α N).cost (fun α N => ⟨_, _, hb α N⟩) (Nat.pow_pos (Nat.mul_pos hW (Nat.pow_pos (by omega)))) ih s
      (by omega) hn k x h1
    rw [Nat.pow_succ]
    refine Nat.le_trans this (Nat.le_of_eq ?_)
    ac_rfl

end Verif
