import Verif.Properties.Missing
import Verif.Proof.AutomatonWord

/-!
# C69: names and keywords that are missing, extra, or misspelt
-/

namespace Verif.Properties
open Nom Spec Auto

private theorem bothWord {s s' : Str} {a b : List Str} {x : Str} (hx : PlainName x) (h : Lexes s (a ++ x :: b)) (h' : Lexes s' (a ++ b))
    {ds ds' : List Definition} (hp : weedleParse s = .ok ds) (hp' : weedleParse s' = .ok ds') : WordMayLack a b := by
  have h1 := accepted_lexes hp h
  have h2 := accepted_lexes hp' h'
  rcases lackWord (a := a) (b := b) hx (by simpa using acc_definitions fr_empty h1) (acc_definitions fr_empty h2) with
    h3 | ⟨a', o, rfl, ho, h3 | ⟨c, t, rfl, o', hc⟩⟩
  · exact h3
  · subst h3
    have hd : ds ≠ [] := by
      rintro rfl
      have : a' ++ [o] ++ [x] = [] := h1
      simp at this
    obtain ⟨y, hy⟩ := semi_definitions hd _ h1
    have := (List.append_inj' hy rfl).2
    simp only [List.cons.injEq, and_true] at this
    exact absurd this (plain_ne hx .semi)
  · have hp2 : c ∈ punctuation := by
      simp only [pairs, List.mem_cons, List.not_mem_nil, or_false, Prod.mk.injEq] at hc
      rcases hc with ⟨-, rfl⟩ | ⟨-, rfl⟩ | ⟨-, rfl⟩ | ⟨-, rfl⟩ <;> decide
    have ho2 : o ∈ punctuation := by
      simp only [List.mem_cons, List.not_mem_nil, or_false] at ho
      rcases ho with rfl | rfl <;> decide
    have hf := (C37_follow o c ho2 hp2).2 ⟨s', _, ds', hp', h', ⟨a', t, by simp⟩⟩
    simp only [pairs, List.mem_cons, List.not_mem_nil, or_false, Prod.mk.injEq] at hc
    simp only [List.mem_cons, List.not_mem_nil, or_false] at ho
    rcases ho with rfl | rfl <;> rcases hc with ⟨-, rfl⟩ | ⟨-, rfl⟩ | ⟨-, rfl⟩ | ⟨-, rfl⟩
    all_goals first | exact .parens | exact .brackets | exact absurd hf (by decide)

theorem fr_keyword {k : Wd} {l : List Str} (h : k.text ∉ l) : Fr k.text l := by
  rintro i hi w - hw rfl
  rcases hw with rfl | hw
  · exact h hi
  · exact (Wd.first hw).2.1 rfl

theorem free_kws : ∀ k ∈ kws, ∀ w ∈ c!"any" :: c!"undefined" :: typeWords, w ≠ k.text := by decide +kernel

private theorem reqs_kws : ∀ k ∈ reqs, k ∈ kws := by decide

/-- If a word that is not a keyword is left out of an accepted text, the text is rejected, apart from the places listed in
`WordMayLack`. -/
theorem C69_missing_name (s s' : Str) (a b : List Str) (x : Str) (hx : PlainName x) (h : Lexes s (a ++ x :: b)) (h' : Lexes s' (a ++ b))
    (hn : ¬ WordMayLack a b) (ds : List Definition) (hp : weedleParse s = .ok ds) : weedleParse s' = .panic :=
  panics fun _ hp' => hn (bothWord hx h h' hp hp')

/-- If a word that is not a keyword is inserted into an accepted text, the text is rejected, apart from the same places. -/
theorem C69_extra_name (s s' : Str) (a b : List Str) (x : Str) (hx : PlainName x) (h : Lexes s (a ++ b)) (h' : Lexes s' (a ++ x :: b))
    (hn : ¬ WordMayLack a b) (ds : List Definition) (hp : weedleParse s = .ok ds) : weedleParse s' = .panic :=
  panics fun _ hp' => hn (bothWord hx h' h hp' hp)

private theorem keyword_changed {s s' : Str} {a b : List Str} {k x : Str} (hk : k ∈ grammarWords) (hk' : k ∉ typeKeywords) (hx : PlainName x)
    (h : Lexes s (a ++ k :: b)) (h' : Lexes s' (a ++ x :: b)) {ds ds' : List Definition} (hp : weedleParse s = .ok ds)
    (hp' : weedleParse s' = .ok ds') (hd : k ∉ names ds) : KeywordMayChange k b := by
  obtain ⟨k, hm, rfl⟩ := kws_spec hk hk'
  have : NotType k.text := ⟨free_kws k hm⟩
  exact changeKw (a := a) hm hx (by simpa using acc_definitions (fr_keyword hd) (accepted_lexes hp h))
    (by simpa using acc_definitions fr_empty (accepted_lexes hp' h'))

private theorem keyword_lacked {s s' : Str} {a b : List Str} {k : Str} (hk : k ∈ Spec.required) (h : Lexes s (a ++ k :: b))
    (h' : Lexes s' (a ++ b)) {ds ds' : List Definition} (hp : weedleParse s = .ok ds) (hp' : weedleParse s' = .ok ds')
    (hd : k ∉ names ds) : KeywordMayLack a k b := by
  obtain ⟨k, hm, rfl⟩ := reqs_spec hk
  have : NotType k.text := ⟨free_kws k (reqs_kws k hm)⟩
  exact lackKw (a := a) hm (by simpa using acc_definitions (fr_keyword hd) (accepted_lexes hp h))
    (acc_definitions fr_empty (accepted_lexes hp' h'))

/-- If a keyword of an accepted text, where it is not also a name, is replaced by a word that is not a keyword, the text is rejected,
apart from the places listed in `KeywordMayChange`. -/
theorem C69_misspelt_keyword (s s' : Str) (a b : List Str) (k x : Str) (hk : k ∈ grammarWords) (hk' : k ∉ typeKeywords) (hx : PlainName x)
    (h : Lexes s (a ++ k :: b)) (h' : Lexes s' (a ++ x :: b)) (hn : ¬ KeywordMayChange k b) (ds : List Definition)
    (hp : weedleParse s = .ok ds) (hd : k ∉ names ds) : weedleParse s' = .panic :=
  panics fun _ hp' => hn (keyword_changed hk hk' hx h h' hp hp' hd)

/-- If a required keyword of an accepted text, where it is not also a name, is left out, the text is rejected, apart from the places
listed in `KeywordMayLack`. -/
theorem C69_missing_keyword (s s' : Str) (a b : List Str) (k : Str) (hk : k ∈ Spec.required) (h : Lexes s (a ++ k :: b))
    (h' : Lexes s' (a ++ b)) (hn : ¬ KeywordMayLack a k b) (ds : List Definition) (hp : weedleParse s = .ok ds) (hd : k ∉ names ds) :
    weedleParse s' = .panic :=
  panics fun _ hp' => hn (keyword_lacked hk h h' hp hp' hd)

/-- If a word of an accepted text that is not a keyword is replaced by a keyword and the text is still accepted, then the keyword is a
name in it. -/
theorem C69_keyword_for_name (s s' : Str) (a b : List Str) (k x : Str) (hk : k ∈ grammarWords) (hk' : k ∉ typeKeywords) (hx : PlainName x)
    (h : Lexes s (a ++ x :: b)) (h' : Lexes s' (a ++ k :: b)) (hn : ¬ KeywordMayChange k b) (ds ds' : List Definition)
    (hp : weedleParse s = .ok ds) (hp' : weedleParse s' = .ok ds') : k ∈ names ds' :=
  Classical.byContradiction fun hd => hn (keyword_changed hk hk' hx h' h hp' hp hd)

/-- If a required keyword is inserted into an accepted text and the text is still accepted, then the keyword is a name in it. -/
theorem C69_extra_keyword (s s' : Str) (a b : List Str) (k : Str) (hk : k ∈ Spec.required) (h : Lexes s (a ++ b))
    (h' : Lexes s' (a ++ k :: b)) (hn : ¬ KeywordMayLack a k b) (ds ds' : List Definition) (hp : weedleParse s = .ok ds)
    (hp' : weedleParse s' = .ok ds') : k ∈ names ds' :=
  Classical.byContradiction fun hd => hn (keyword_lacked hk h' h hp' hp hd)

/-! ### Cases of the theorems -/

private theorem plain {x : Str} (h : (match x with | c :: _ => c.isAlpha | [] => false) = Bool.true) (h' : x ∉ grammarWords) : PlainName x := by
  cases x with
  | nil => simp at h
  | cons c v => exact ⟨⟨c, v, rfl, .inl h⟩, h'⟩

private theorem attribute_stays {b : List Str} : ¬ KeywordMayChange c!"attribute" b := by
  generalize hk : c!"attribute" = k
  intro h
  cases h with
  | constructor => exact absurd hk (by decide)
  | modifier h _ => subst hk; exact absurd h (by decide)
  | typedef => exact absurd hk (by decide)

private theorem attribute_needed {a b : List Str} : ¬ KeywordMayLack a c!"attribute" b := by
  generalize hk : c!"attribute" = k
  intro h
  cases h with
  | words => exact absurd hk (by decide)

example : weedleParse c!"interface { };" = .panic :=
  C69_missing_name c!"interface A { };" _ [c!"interface"] [c!"{", c!"}", c!";"] c!"A" (plain rfl (by decide))
    (lexes_sound (by decide +kernel)) (lexes_sound (by decide +kernel))
    (by
      generalize ha : [c!"interface"] = a
      generalize hb : [c!"{", c!"}", c!";"] = b
      rintro (_ | _ | _ | _ | _ | _ | _)
      all_goals first | (revert hb; simp; done) | (have := congrArg List.length ha; simp at this)) _ rfl

example : weedleParse c!"interface A { attribute long; };" = .panic :=
  C69_missing_name c!"interface A { attribute long b; };" _ [c!"interface", c!"A", c!"{", c!"attribute", c!"long"] [c!";", c!"}", c!";"]
    c!"b" (plain rfl (by decide)) (lexes_sound (by decide +kernel)) (lexes_sound (by decide +kernel))
    (by
      generalize ha : [c!"interface", c!"A", c!"{", c!"attribute", c!"long"] = a
      generalize hb : [c!";", c!"}", c!";"] = b
      rintro (_ | _ | _ | _ | _ | _ | _)
      all_goals first | (revert hb; simp; done) | (have := congrArg List.reverse ha; revert this; simp)) _ rfl

example : weedleParse c!"typedef long A B;" = .panic :=
  C69_extra_name c!"typedef long A;" _ [c!"typedef", c!"long", c!"A"] [c!";"] c!"B" (plain rfl (by decide))
    (lexes_sound (by decide +kernel)) (lexes_sound (by decide +kernel))
    (by
      generalize ha : [c!"typedef", c!"long", c!"A"] = a
      generalize hb : [c!";"] = b
      rintro (_ | _ | _ | _ | _ | _ | _)
      all_goals first | (revert hb; simp; done) | (have := congrArg List.reverse ha; revert this; simp)) _ rfl

example : weedleParse c!"interface A { atribute long b; };" = .panic :=
  C69_misspelt_keyword c!"interface A { attribute long b; };" _ [c!"interface", c!"A", c!"{"] [c!"long", c!"b", c!";", c!"}", c!";"]
    c!"attribute" c!"atribute" (by decide) (by decide) (plain rfl (by decide)) (lexes_sound (by decide +kernel)) (lexes_sound (by decide +kernel))
    attribute_stays _ rfl (by decide)

example : weedleParse c!"interface A { readonly long b; };" = .panic :=
  C69_missing_keyword c!"interface A { readonly attribute long b; };" _ [c!"interface", c!"A", c!"{", c!"readonly"]
    [c!"long", c!"b", c!";", c!"}", c!";"] c!"attribute" (by decide) (lexes_sound (by decide +kernel)) (lexes_sound (by decide +kernel))
    attribute_needed _ rfl (by decide)

example (ds : List Definition) (hp : weedleParse c!"interface A { attribute b(); };" = .ok ds) : c!"attribute" ∈ names ds :=
  C69_keyword_for_name c!"interface A { C b(); };" _ [c!"interface", c!"A", c!"{"] [c!"b", c!"(", c!")", c!";", c!"}", c!";"]
    c!"attribute" c!"C" (by decide) (by decide) (plain rfl (by decide)) (lexes_sound (by decide +kernel)) (lexes_sound (by decide +kernel))
    attribute_stays _ ds rfl hp

example (ds : List Definition) (hp : weedleParse c!"interface A { attribute b(); };" = .ok ds) : c!"attribute" ∈ names ds :=
  C69_extra_keyword c!"interface A { b(); };" _ [c!"interface", c!"A", c!"{"] [c!"b", c!"(", c!")", c!";", c!"}", c!";"]
    c!"attribute" (by decide) (lexes_sound (by decide +kernel)) (lexes_sound (by decide +kernel))
    attribute_needed _ ds rfl hp

/-! ### The exceptions are real: both texts are accepted -/

private def Ok (s : Str) : Prop := ∃ ds, weedleParse s = .ok ds

example : Ok c!"interface A { B c(); };" ∧ Ok c!"interface A { B (); };" := ⟨⟨_, rfl⟩, ⟨_, rfl⟩⟩
example : Ok c!"interface A { (B) c(); };" ∧ Ok c!"interface A { (B) (); };" := ⟨⟨_, rfl⟩, ⟨_, rfl⟩⟩
example : Ok c!"interface A { sequence<B> c(); };" ∧ Ok c!"interface A { sequence<B> (); };" := ⟨⟨_, rfl⟩, ⟨_, rfl⟩⟩
example : Ok c!"interface A { B? c(); };" ∧ Ok c!"interface A { B? (); };" := ⟨⟨_, rfl⟩, ⟨_, rfl⟩⟩
example : Ok c!"interface A { getter B c(); };" ∧ Ok c!"interface A { getter c(); };" := ⟨⟨_, rfl⟩, ⟨_, rfl⟩⟩
example : Ok c!"interface A { attribute (B) c; };" ∧ Ok c!"interface A { attribute () c; };" := ⟨⟨_, rfl⟩, ⟨_, rfl⟩⟩
example : Ok c!"[A=(b)] c includes d;" ∧ Ok c!"[A=()] c includes d;" := ⟨⟨_, rfl⟩, ⟨_, rfl⟩⟩
example : Ok c!"[A] c includes d;" ∧ Ok c!"[] c includes d;" := ⟨⟨_, rfl⟩, ⟨_, rfl⟩⟩
example : Ok c!"interface A { attribute () b; };" ∧ Ok c!"interface A { attribute (); };" := ⟨⟨_, rfl⟩, ⟨_, rfl⟩⟩
example : Ok c!"interface A { attribute (optional or b) c; };" ∧ Ok c!"interface A { attribute (optional or b); };" := ⟨⟨_, rfl⟩, ⟨_, rfl⟩⟩
example : Ok c!"[A=b()] c includes d;" ∧ Ok c!"[A=()] c includes d;" := ⟨⟨_, rfl⟩, ⟨_, rfl⟩⟩
example : Ok c!"interface mixin A {};" ∧ Ok c!"interface mixin {};" := ⟨⟨_, rfl⟩, ⟨_, rfl⟩⟩
example : Ok c!"interface A { constructor(); };" ∧ Ok c!"interface A { constructr(); };" := ⟨⟨_, rfl⟩, ⟨_, rfl⟩⟩
example : Ok c!"interface A { static b(); };" ∧ Ok c!"interface A { statik b(); };" := ⟨⟨_, rfl⟩, ⟨_, rfl⟩⟩
example : Ok c!"interface A { getter b(); };" ∧ Ok c!"interface A { geter b(); };" := ⟨⟨_, rfl⟩, ⟨_, rfl⟩⟩
example : Ok c!"interface A { setter b(); };" ∧ Ok c!"interface A { seter b(); };" := ⟨⟨_, rfl⟩, ⟨_, rfl⟩⟩
example : Ok c!"interface A { deleter b(); };" ∧ Ok c!"interface A { deletr b(); };" := ⟨⟨_, rfl⟩, ⟨_, rfl⟩⟩
example : Ok c!"interface A { legacycaller b(); };" ∧ Ok c!"interface A { legacycall b(); };" := ⟨⟨_, rfl⟩, ⟨_, rfl⟩⟩
example : Ok c!"interface A { stringifier b(); };" ∧ Ok c!"interface A { stringifer b(); };" := ⟨⟨_, rfl⟩, ⟨_, rfl⟩⟩
example : Ok c!"typedef includes A;" ∧ Ok c!"tpedef includes A;" := ⟨⟨_, rfl⟩, ⟨_, rfl⟩⟩
example : Ok c!"typedef implements A;" ∧ Ok c!"tpedef implements A;" := ⟨⟨_, rfl⟩, ⟨_, rfl⟩⟩
example : Ok c!"typedef (long or long) A;" ∧ Ok c!"typedef (long long) A;" := ⟨⟨_, rfl⟩, ⟨_, rfl⟩⟩
example : Ok c!"typedef (unsigned or short) A;" ∧ Ok c!"typedef (unsigned short) A;" := ⟨⟨_, rfl⟩, ⟨_, rfl⟩⟩
example : Ok c!"typedef (unrestricted or float) A;" ∧ Ok c!"typedef (unrestricted float) A;" := ⟨⟨_, rfl⟩, ⟨_, rfl⟩⟩

/-- Where the keyword is also a name, it can be left out: an attribute called `attribute`. -/
example : Ok c!"interface A { attribute attribute(); };" ∧ Ok c!"interface A { attribute(); };" := ⟨⟨_, rfl⟩, ⟨_, rfl⟩⟩

end Verif.Properties
