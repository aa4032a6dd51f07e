import Verif.Properties.Rejection
import Verif.Properties.Kinds
import Verif.Proof.AutomatonEdit
import Verif.Proof.AutomatonRead

/-!
# C68: punctuation marks that are missing, extra, or exchanged
-/

namespace Verif.Properties
open Nom Spec Auto

private theorem both {s s' : Str} {a b : List Str} {x : Str} (hx : x ∈ separators) (h : Lexes s (a ++ x :: b)) (h' : Lexes s' (a ++ b))
    {ds ds' : List Definition} (hp : weedleParse s = .ok ds) (hp' : weedleParse s' = .ok ds') : MayLack a x b := by
  have h1 := accepted_lexes hp h
  have h2 := accepted_lexes hp' h'
  rcases lack (a := a) (b := b) hx (by simpa using acc_definitions fr_empty h1) (acc_definitions fr_empty h2) with h3 | ⟨rfl, h3 | ⟨c, t, rfl, o, hc⟩⟩
  · exact h3
  · subst h3
    have hd : ds ≠ [] := by
      rintro rfl
      have : a ++ [c!","] = [] := h1
      simp at this
    obtain ⟨y, hy⟩ := semi_definitions hd _ h1
    have := (List.append_inj' hy rfl).2
    simp at this
  · have hp2 : c ∈ punctuation := by
      simp only [pairs, List.mem_cons, List.not_mem_nil, or_false, Prod.mk.injEq] at hc
      rcases hc with ⟨-, rfl⟩ | ⟨-, rfl⟩ | ⟨-, rfl⟩ | ⟨-, rfl⟩ <;> decide
    have hf := (C37_follow c!"," c (by decide) hp2).2 ⟨s, _, ds, hp, h, ⟨a, t, by simp⟩⟩
    simp only [pairs, List.mem_cons, List.not_mem_nil, or_false, Prod.mk.injEq] at hc
    rcases hc with ⟨-, rfl⟩ | ⟨-, rfl⟩ | ⟨-, rfl⟩ | ⟨-, rfl⟩
    · exact absurd hf (by decide)
    · exact absurd hf (by decide)
    · exact .last
    · exact absurd hf (by decide)

/-- If a separator of an accepted text is left out, the text is rejected, apart from the places listed in `MayLack`. -/
theorem C68_missing (s s' : Str) (a b : List Str) (x : Str) (hx : x ∈ separators) (h : Lexes s (a ++ x :: b)) (h' : Lexes s' (a ++ b))
    (hn : ¬ MayLack a x b) (ds : List Definition) (hp : weedleParse s = .ok ds) : weedleParse s' = .panic :=
  panics fun _ hp' => hn (both hx h h' hp hp')

/-- If a separator is inserted into an accepted text, the text is rejected, apart from the same places. -/
theorem C68_extra (s s' : Str) (a b : List Str) (x : Str) (hx : x ∈ separators) (h : Lexes s (a ++ b)) (h' : Lexes s' (a ++ x :: b))
    (hn : ¬ MayLack a x b) (ds : List Definition) (hp : weedleParse s = .ok ds) : weedleParse s' = .panic :=
  panics fun _ hp' => hn (both hx h' h hp' hp)

/-- If a mark of an accepted text that is not a bracket is replaced by another, the text is rejected, apart from the places listed in
`MayChange`. -/
theorem C68_changed (s s' : Str) (a b : List Str) (x y : Str) (hx : x ∈ signs) (hy : y ∈ signs) (hne : x ≠ y) (h : Lexes s (a ++ x :: b))
    (h' : Lexes s' (a ++ y :: b)) (hn : ¬ MayChange x y b) (hn' : ¬ MayChange y x b) (ds : List Definition) (hp : weedleParse s = .ok ds) :
    weedleParse s' = .panic :=
  panics fun _ hp' => by
    rcases change (a := a) (b := b) hx hy hne (by simpa using acc_definitions fr_empty (accepted_lexes hp h))
      (by simpa using acc_definitions fr_empty (accepted_lexes hp' h')) with h | h
    · exact hn h
    · exact hn' h

/-! ### Cases of the theorems -/

example : weedleParse c!"interface A { void f(long a long b); };" = .panic :=
  C68_missing c!"interface A { void f(long a, long b); };" _
    [c!"interface", c!"A", c!"{", c!"void", c!"f", c!"(", c!"long", c!"a"] [c!"long", c!"b", c!")", c!";", c!"}", c!";"] c!","
    (by decide) (lexes_sound (by decide +kernel)) (lexes_sound (by decide +kernel))
    (by
      generalize ha : [c!"interface", c!"A", c!"{", c!"void", c!"f", c!"(", c!"long", c!"a"] = a
      generalize hx : c!"," = x
      generalize hb : [c!"long", c!"b", c!")", c!";", c!"}", c!";"] = b
      rintro (_ | _ | _ | @⟨a, _, w, w', h⟩ | _ | _)
      all_goals first | (revert hx; decide) | (revert hb; simp; done) | skip
      have : w = c!"a" := by
        have := congrArg List.getLast? ha
        simpa using this.symm
      subst this
      simp [wordPairs] at h) _ rfl

example : weedleParse c!"dictionary A { long a = 1 };" = .panic :=
  C68_missing c!"dictionary A { long a = 1; };" _
    [c!"dictionary", c!"A", c!"{", c!"long", c!"a", c!"=", c!"1"] [c!"}", c!";"] c!";"
    (by decide) (lexes_sound (by decide +kernel)) (lexes_sound (by decide +kernel))
    (by
      generalize ha : [c!"dictionary", c!"A", c!"{", c!"long", c!"a", c!"=", c!"1"] = a
      generalize hx : c!";" = x
      generalize hb : [c!"}", c!";"] = b
      rintro (_ | _ | _ | _ | _ | _)
      all_goals first | (revert hx; decide) | (revert hb; simp; done) | (have := congrArg List.getLast? ha; revert this; simp)) _ rfl

example : weedleParse c!"typedef long A;;" = .panic :=
  C68_extra c!"typedef long A;" _ [c!"typedef", c!"long", c!"A"] [c!";"] c!";"
    (by decide) (lexes_sound (by decide +kernel)) (lexes_sound (by decide +kernel))
    (by
      generalize ha : [c!"typedef", c!"long", c!"A"] = a
      generalize hx : c!";" = x
      generalize hb : [c!";"] = b
      rintro (_ | _ | _ | _ | _ | _)
      all_goals first | (revert hx; decide) | (revert hb; simp; done) | (have := congrArg List.getLast? ha; revert this; simp)) _ rfl

example : weedleParse c!"interface A { void f(long a; long b); };" = .panic :=
  C68_changed c!"interface A { void f(long a, long b); };" _
    [c!"interface", c!"A", c!"{", c!"void", c!"f", c!"(", c!"long", c!"a"] [c!"long", c!"b", c!")", c!";", c!"}", c!";"] c!"," c!";"
    (by decide) (by decide) (by decide) (lexes_sound (by decide +kernel)) (lexes_sound (by decide +kernel))
    (by generalize hx : c!"," = x; generalize hy : c!";" = y; rintro (_ | _ | _) <;> revert hx hy <;> decide)
    (by generalize hx : c!"," = x; generalize hy : c!";" = y; rintro (_ | _ | _) <;> revert hx hy <;> decide) _ rfl

/-! ### The exceptions are real: both texts are accepted -/

private def Ok (s : Str) : Prop := ∃ ds, weedleParse s = .ok ds

example : Ok c!"interface A { stringifier; B c(); };" ∧ Ok c!"interface A { stringifier B c(); };" := ⟨⟨_, rfl⟩, ⟨_, rfl⟩⟩
example : Ok c!"interface A { attribute(); stringifier; };" ∧ Ok c!"interface A { attribute () stringifier; };" := ⟨⟨_, rfl⟩, ⟨_, rfl⟩⟩
example : Ok c!"enum A { \"b\", };" ∧ Ok c!"enum A { \"b\" };" := ⟨⟨_, rfl⟩, ⟨_, rfl⟩⟩
example : Ok c!"interface A { iterable<long, long>; };" ∧ Ok c!"interface A { iterable<long long>; };" := ⟨⟨_, rfl⟩, ⟨_, rfl⟩⟩
example : Ok c!"interface A { iterable<unsigned, long>; };" ∧ Ok c!"interface A { iterable<unsigned long>; };" := ⟨⟨_, rfl⟩, ⟨_, rfl⟩⟩
example : Ok c!"interface A { iterable<unsigned, short>; };" ∧ Ok c!"interface A { iterable<unsigned short>; };" := ⟨⟨_, rfl⟩, ⟨_, rfl⟩⟩
example : Ok c!"interface A { iterable<unrestricted, float>; };" ∧ Ok c!"interface A { iterable<unrestricted float>; };" := ⟨⟨_, rfl⟩, ⟨_, rfl⟩⟩
example : Ok c!"interface A { iterable<unrestricted, double>; };" ∧ Ok c!"interface A { iterable<unrestricted double>; };" := ⟨⟨_, rfl⟩, ⟨_, rfl⟩⟩
example : Ok c!"[A=()] a includes b;" ∧ Ok c!"[A()] a includes b;" := ⟨⟨_, rfl⟩, ⟨_, rfl⟩⟩
example : Ok c!"interface mixin : A {};" ∧ Ok c!"interface mixin A {};" := ⟨⟨_, rfl⟩, ⟨_, rfl⟩⟩
example : Ok c!"interface A { void f(B? c); };" ∧ Ok c!"interface A { void f(B... c); };" := ⟨⟨_, rfl⟩, ⟨_, rfl⟩⟩
example : Ok c!"[A, B] a includes b;" ∧ Ok c!"[A=B] a includes b;" := ⟨⟨_, rfl⟩, ⟨_, rfl⟩⟩
example : Ok c!"interface A { attribute(); stringifier; };" ∧ Ok c!"interface A { attribute ()? stringifier; };" := ⟨⟨_, rfl⟩, ⟨_, rfl⟩⟩

end Verif.Properties
