import Verif.Proof.Definitions
import Verif.Proof.BigStep

/-!
# An upper bound for the number of terminals that are tried

`Weigh c g w`: the number of terminals tried by `g`, when a recursive call counts as one terminal and repetitions
count twice, is at most `w`; `c` says that something was consumed before `g`.
-/

namespace Verif
open Nom Spec

class inductive Weigh : {α : Type} → Bool → G α → outParam Nat → Prop where
  | ret {α : Type} {c : Bool} {a : α} : Weigh c (.ret a) 0
  | leaf {α : Type} {c : Bool} {l : Leaf α} : Weigh c (.leaf l) 1
  | bind {α β : Type} {c st : Bool} {g : G α} {f : α → G β} {w w' : Nat} (hs : Guarded true g st) (hg : Weigh c g w)
      (hf : ∀ a, Weigh (st || c) (f a) w') : Weigh c (.bind g f) (w + w')
  | orElse {α : Type} {c : Bool} {g h : G α} {w w' : Nat} (hg : Weigh c g w) (hh : Weigh c h w') :
      Weigh c (.orElse g h) (w + w')
  | altEnd {α : Type} {c : Bool} : Weigh c (.altEnd (α := α)) 0
  | opt {α : Type} {c : Bool} {g : G α} {w : Nat} (hg : Weigh c g w) : Weigh c (.opt g) w
  | many0 {α : Type} {c st : Bool} {g : G α} {w : Nat} (hs : Guarded true g st) (hg : Weigh c g w) :
      Weigh c (.many0 g) (2 * w)
  | separatedList {α β : Type} {c st st' : Bool} {sep : G β} {g : G α} {w w' : Nat} (hs : Guarded true sep st)
      (hs' : Guarded true g st') (hsep : Weigh c sep w) (hg : Weigh c g w') : Weigh c (.separatedList sep g) (2 * (w + w'))
  | separatedNonemptyList {α β : Type} {c st st' : Bool} {sep : G β} {g : G α} {w w' : Nat} (hs : Guarded true sep st)
      (hs' : Guarded true g st') (hsep : Weigh c sep w) (hg : Weigh c g w') :
      Weigh c (.separatedNonemptyList sep g) (2 * (w + w'))
  | call {α : Type} {n : NT α} : Weigh true (.call n) 1
  | mono {α : Type} {c : Bool} {g : G α} {w w' : Nat} (h : Weigh c g w) (hw : w ≤ w') : Weigh c g w'

theorem runs_fine {α : Type} {g : G α} {st : Bool} {s : Str} {c : Nat} {x : Res Char α} (hg : Guarded true g st)
    (h : Runs charLeaf g s c x) : Fine st s x := by
  obtain ⟨d, hd⟩ := Runs.parse charLeaf_fine hg s
  obtain ⟨-, rfl⟩ := Runs.det hd _ _ h
  exact parseWith_fine charLeaf_fine hg s

theorem suffix_lt {r s : Str} (h : r <:+ s) (hne : r ≠ s) : r.length < s.length := by
  rcases Nat.lt_or_eq_of_le h.length_le with h' | h'
  · exact h'
  · exact absurd (h.eq_of_length h') hne

/-- Recursive calls on texts shorter than `n` are cheap. -/
def Cheap (K n : Nat) : Prop :=
  ∀ (α : Type) (N : NT α) (s : Str) (k : Nat) (x : Res Char α), s.length < n → Runs charLeaf (.call N) s k x →
    k ≤ K ^ (s.length + 1)

theorem Cheap.mono {K m n : Nat} (h : Cheap K n) (hm : m ≤ n) : Cheap K m := fun α N s k x hs => h α N s k x (by omega)

theorem pow_le {K m n : Nat} (hK : 2 ≤ K) (h : m ≤ n) : K ^ m ≤ K ^ n := Nat.pow_le_pow_right (by omega) h

theorem mul_pow_le {K m n w : Nat} (hK : 2 ≤ K) (h : m ≤ n) : w * K ^ m ≤ w * K ^ n := Nat.mul_le_mul_left _ (pow_le hK h)

theorem twice_pow {K m n w : Nat} (hK : 2 ≤ K) (h : m < n) : 2 * w * K ^ m ≤ w * K ^ n := by
  have h1 : K ^ (m + 1) ≤ K ^ n := pow_le hK h
  have h2 : 2 * K ^ m ≤ K ^ (m + 1) := by
    rw [Nat.pow_succ, Nat.mul_comm]
    exact Nat.mul_le_mul_left _ hK
  calc 2 * w * K ^ m = w * (2 * K ^ m) := by ac_rfl
    _ ≤ w * K ^ n := Nat.mul_le_mul_left _ (by omega)

def Bounded (K : Nat) {α : Type} (c : Bool) (g : G α) (w : Nat) : Prop :=
  ∀ s : Str, Cheap K (s.length + c.toNat) → ∀ k x, Runs charLeaf g s k x → k ≤ w * K ^ (s.length + c.toNat)

theorem bounded_many0 {K : Nat} (hK : 2 ≤ K) {α : Type} {c st : Bool} {g : G α} {w : Nat} (hs : Guarded true g st)
    (hg : Bounded K c g w) (n : Nat) : ∀ s : Str, s.length ≤ n → Cheap K (s.length + c.toNat) → ∀ k x,
    Runs charLeaf (.many0 g) s k x → k ≤ 2 * w * K ^ (s.length + c.toNat) := by
  induction n with
  | zero =>
    intro s hn hc k x h
    have := Runs.inv h
    simp only [Runs.Inv] at this
    have h2 : ∀ k x, Runs charLeaf g s k x → k ≤ 2 * w * K ^ (s.length + c.toNat) := fun k x hr =>
      Nat.le_trans (hg s hc k x hr) (Nat.mul_le_mul_right _ (by omega))
    rcases this with ⟨r, a, d, e, y, h1, h3, -⟩ | ⟨a, h1, -⟩ | ⟨p, kk, h1, -⟩ | ⟨e, -, h1, -⟩
    · have := suffix_lt (runs_fine hs h1).1 h3
      omega
    all_goals exact h2 _ _ h1
  | succ n ih =>
    intro s hn hc k x h
    have := Runs.inv h
    simp only [Runs.Inv] at this
    have h2 : ∀ k x, Runs charLeaf g s k x → k ≤ 2 * w * K ^ (s.length + c.toNat) := fun k x hr =>
      Nat.le_trans (hg s hc k x hr) (Nat.mul_le_mul_right _ (by omega))
    rcases this with ⟨r, a, d, e, y, h1, h3, h4, rfl, -⟩ | ⟨a, h1, -⟩ | ⟨p, kk, h1, -⟩ | ⟨e, -, h1, -⟩
    · have hl := suffix_lt (runs_fine hs h1).1 h3
      have h5 := hg s hc _ _ h1
      have h6 := ih r (by omega) (hc.mono (by omega)) _ _ h4
      have h7 := twice_pow (w := w) hK (show r.length + c.toNat < s.length + c.toNat by omega)
      rw [Nat.mul_assoc 2] 
      omega
    all_goals exact h2 _ _ h1

theorem bounded_tail {K : Nat} (hK : 2 ≤ K) {α β : Type} {c st st' : Bool} {sep : G β} {g : G α} {w w' : Nat}
    (hs : Guarded true sep st) (hs' : Guarded true g st') (hsep : Bounded K c sep w) (hg : Bounded K c g w') (n : Nat) :
    ∀ s : Str, s.length ≤ n → Cheap K (s.length + c.toNat) → ∀ k x,
    RunsTail charLeaf sep g s k x → k ≤ 2 * (w + w') * K ^ (s.length + c.toNat) := by
  induction n with
  | zero =>
    intro s hn hc k x h
    have h0 : ∀ r b k, Runs charLeaf sep s k (.ok r b) → r ≠ s → False := fun r b k h1 h2 => by
      have := suffix_lt (runs_fine hs h1).1 h2
      omega
    have h2 : ∀ k x, Runs charLeaf sep s k x → k ≤ 2 * (w + w') * K ^ (s.length + c.toNat) := fun k x hr =>
      Nat.le_trans (hsep s hc k x hr) (Nat.mul_le_mul_right _ (by omega))
    cases h with
    | noSep h => exact h2 _ _ h
    | sepErr h => exact h2 _ _ h
    | sepEmpty h => exact h2 _ _ h
    | noElem h hne => exact (h0 _ _ _ h hne).elim
    | elemErr h hne => exact (h0 _ _ _ h hne).elim
    | back h hne => exact (h0 _ _ _ h hne).elim
    | more h hne => exact (h0 _ _ _ h hne).elim
  | succ n ih =>
    intro s hn hc k x h
    have h1 : ∀ k x, Runs charLeaf sep s k x → k ≤ w * K ^ (s.length + c.toNat) := fun k x hr => hsep s hc k x hr
    have h0 : ∀ r b k, Runs charLeaf sep s k (.ok r b) → r ≠ s → r.length < s.length := fun r b k h1 h2 =>
      suffix_lt (runs_fine hs h1).1 h2
    have h2 : ∀ r b k, Runs charLeaf sep s k (.ok r b) → r ≠ s → ∀ k x, Runs charLeaf g r k x →
        k ≤ w' * K ^ (s.length + c.toNat) := fun r b k hr hne k' x hr' => by
      have hl := h0 r b k hr hne
      exact Nat.le_trans (hg r (hc.mono (by omega)) k' x hr') (mul_pow_le hK (by omega))
    have hexp : 2 * (w + w') * K ^ (s.length + c.toNat) =
        2 * (w * K ^ (s.length + c.toNat)) + 2 * (w' * K ^ (s.length + c.toNat)) := by
      rw [Nat.mul_assoc, Nat.add_mul, Nat.mul_add]
    rw [hexp]
    cases h with
    | noSep h => have := h1 _ _ h; omega
    | sepErr h => have := h1 _ _ h; omega
    | sepEmpty h => have := h1 _ _ h; omega
    | noElem h hne h' => have := h1 _ _ h; have := h2 _ _ _ h hne _ _ h'; omega
    | elemErr h hne h' => have := h1 _ _ h; have := h2 _ _ _ h hne _ _ h'; omega
    | back h hne h' => have := h1 _ _ h; have := h2 _ _ _ h hne _ _ h'; omega
    | more h hne h' hne2 h3 =>
      have h4 := h1 _ _ h
      have h5 := h2 _ _ _ h hne _ _ h'
      have hl := h0 _ _ _ h hne
      have hq := (runs_fine hs' h').1.length_le
      have h6 := ih _ (by omega) (hc.mono (by omega)) _ _ h3
      have h7 := twice_pow (w := w + w') hK (show _ + c.toNat < s.length + c.toNat from Nat.add_lt_add_right (Nat.lt_of_le_of_lt hq hl) _)
      rw [Nat.add_mul] at h7
      omega

theorem bounded_seps {K : Nat} (hK : 2 ≤ K) {α β : Type} {c st st' : Bool} {sep : G β} {g : G α} {w w' : Nat}
    (hs : Guarded true sep st) (hs' : Guarded true g st') (hsep : Bounded K c sep w) (hg : Bounded K c g w') (s r : Str)
    (hc : Cheap K (s.length + c.toNat)) (d e : Nat) (a : α) (y : Res Char (List α)) (h1 : Runs charLeaf g s d (.ok r a))
    (h2 : r ≠ s) (h3 : RunsTail charLeaf sep g r e y) : d + e ≤ 2 * (w + w') * K ^ (s.length + c.toNat) := by
  have hl := suffix_lt (runs_fine hs' h1).1 h2
  have h4 := hg s hc _ _ h1
  have h5 := bounded_tail hK hs hs' hsep hg _ r (Nat.le_refl _) (hc.mono (by omega)) _ _ h3
  have h6 := twice_pow (w := w + w') hK (show r.length + c.toNat < s.length + c.toNat by omega)
  have hexp : 2 * (w + w') * K ^ (s.length + c.toNat) =
      2 * (w * K ^ (s.length + c.toNat)) + 2 * (w' * K ^ (s.length + c.toNat)) := by
    rw [Nat.mul_assoc, Nat.add_mul, Nat.mul_add]
  rw [Nat.add_mul] at h6
  omega

theorem Weigh.bounded {K : Nat} (hK : 2 ≤ K) {α : Type} {c : Bool} {g : G α} {w : Nat} (h : Weigh c g w) :
    Bounded K c g w := by
  induction h with
  | ret =>
    intro s hc k x h
    have := (Runs.inv h).1
    omega
  | leaf =>
    intro s hc k x h
    have h1 := (Runs.inv h).1
    have := Nat.pow_pos (n := s.length + Bool.toNat ‹Bool›) (show 0 < K by omega)
    omega
  | @bind α β c st g f w w' hs hg hf ih1 ih2 =>
    intro s hc k x h
    rw [Nat.add_mul]
    have := Runs.inv h
    simp only [Runs.Inv] at this
    rcases this with ⟨r, a, d, e, h1, h2, rfl⟩ | ⟨e, h1, -⟩
    · have h3 := ih1 s hc _ _ h1
      have hf := runs_fine hs h1
      have hle : r.length + (st || c).toNat ≤ s.length + c.toNat := by
        have h4 := hf.1.length_le
        cases st with
        | false => simpa using h4
        | true =>
          have h5 := hf.2 rfl
          simp
          omega
      have h4 := ih2 a r (hc.mono hle) _ _ h2
      have := mul_pow_le (w := w') hK hle
      omega
    · have := ih1 s hc _ _ h1
      omega
  | orElse hg hh ih1 ih2 =>
    intro s hc k x h
    rw [Nat.add_mul]
    have := Runs.inv h
    simp only [Runs.Inv] at this
    rcases this with ⟨r, a, h1, -⟩ | ⟨p, k', d, e, h1, h2, rfl⟩ | ⟨e, -, h1, -⟩
    · have := ih1 s hc _ _ h1; omega
    · have := ih1 s hc _ _ h1; have := ih2 s hc _ _ h2; omega
    · have := ih1 s hc _ _ h1; omega
  | altEnd =>
    intro s hc k x h
    have := (Runs.inv h).1
    omega
  | opt hg ih =>
    intro s hc k x h
    have := Runs.inv h
    simp only [Runs.Inv] at this
    rcases this with ⟨r, a, h1, -⟩ | ⟨p, k', h1, -⟩ | ⟨e, -, h1, -⟩ <;> exact ih s hc _ _ h1
  | many0 hs hg ih => exact fun s hc k x h => bounded_many0 hK hs ih _ s (Nat.le_refl _) hc k x h
  | @separatedList α β c st st' sep g w w' hs hs' hsep hg ih1 ih2 =>
    intro s hc k x h
    have := Runs.inv h
    simp only [Runs.Inv] at this
    have h2 := fun k x hr => Nat.le_trans (ih2 s hc k x hr) (Nat.mul_le_mul_right _ (show w' ≤ 2 * (w + w') by omega))
    rcases this with ⟨r, a, d, e, y, h1, h3, h4, rfl, -⟩ | ⟨a, h1, -⟩ | ⟨p, kk, h1, -⟩ | ⟨e, -, h1, -⟩
    · exact bounded_seps hK hs hs' ih1 ih2 s r hc d e a y h1 h3 h4
    all_goals exact h2 _ _ h1
  | @separatedNonemptyList α β c st st' sep g w w' hs hs' hsep hg ih1 ih2 =>
    intro s hc k x h
    have := Runs.inv h
    simp only [Runs.Inv] at this
    have h2 := fun k x hr => Nat.le_trans (ih2 s hc k x hr) (Nat.mul_le_mul_right _ (show w' ≤ 2 * (w + w') by omega))
    rcases this with ⟨r, a, d, e, y, h1, h3, h4, rfl, -⟩ | ⟨a, h1, -⟩ | ⟨e, h1, -⟩
    · exact bounded_seps hK hs hs' ih1 ih2 s r hc d e a y h1 h3 h4
    all_goals exact h2 _ _ h1
  | call =>
    intro s hc k x h
    have := hc _ _ s k x (by simp) h
    simpa using this
  | mono h hw ih => exact fun s hc k x h => Nat.le_trans (ih s hc k x h) (Nat.mul_le_mul_right _ hw)

theorem cheap {K : Nat} (hK : 2 ≤ K) (hb : ∀ (α : Type) (N : NT α), Weigh false (G.body N) K) (n : Nat) : Cheap K n := by
  induction n with
  | zero => intro α N s k x h; omega
  | succ n ih =>
    intro α N s k x hs h
    have h1 : Runs charLeaf (G.body N) s k x := Runs.inv h
    have := (hb α N).bounded hK s (ih.mono (by simp; omega)) k x h1
    rw [Nat.pow_succ, Nat.mul_comm]
    simpa using this

end Verif
