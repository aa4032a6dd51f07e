import Verif.Properties.Words
import Verif.Proof.AutomatonItem

/-!
# C70: brackets, literals and keywords that are missing, extra, or exchanged
-/

namespace Verif.Properties
open Nom Spec Auto

private theorem balanced_of {s : Str} {ls : List Str} (hl : Lexes s ls) {ds : List Definition} (hp : weedleParse s = .ok ds) {o c : Str}
    (h : (o, c) ∈ pairs) : ls.count o = ls.count c :=
  Classical.byContradiction fun hn => by
    rw [C39_count s ls hl o c h hn] at hp
    cases hp

private theorem bracket_pair {x : Str} (hx : x ∈ bracketItems) : ∃ o c, (o, c) ∈ pairs ∧ o ≠ c ∧ (x = o ∨ x = c) := by
  simp only [bracketItems, List.mem_cons, List.not_mem_nil, or_false] at hx
  rcases hx with rfl | rfl | rfl | rfl | rfl | rfl | rfl | rfl
  · exact ⟨_, c!")", by decide, by decide, .inl rfl⟩
  · exact ⟨c!"(", _, by decide, by decide, .inr rfl⟩
  · exact ⟨_, c!"]", by decide, by decide, .inl rfl⟩
  · exact ⟨c!"[", _, by decide, by decide, .inr rfl⟩
  · exact ⟨_, c!"}", by decide, by decide, .inl rfl⟩
  · exact ⟨c!"{", _, by decide, by decide, .inr rfl⟩
  · exact ⟨_, c!">", by decide, by decide, .inl rfl⟩
  · exact ⟨c!"<", _, by decide, by decide, .inr rfl⟩

private theorem bracket_lacked {s s' : Str} {a b : List Str} {x : Str} (hx : x ∈ bracketItems) (h : Lexes s (a ++ x :: b)) (h' : Lexes s' (a ++ b))
    {ds ds' : List Definition} (hp : weedleParse s = .ok ds) (hp' : weedleParse s' = .ok ds') : False := by
  obtain ⟨o, c, hm, hne, hx⟩ := bracket_pair hx
  have h1 := balanced_of h hp hm
  have h2 := balanced_of h' hp' hm
  simp only [List.count_append, List.count_cons, beq_iff_eq] at h1 h2
  rcases hx with rfl | rfl
  · simp [hne] at h1; omega
  · simp [hne.symm] at h1; omega

private theorem bracket_changed {s s' : Str} {a b : List Str} {x y : Str} (hx : x ∈ bracketItems) (hne : x ≠ y) (h : Lexes s (a ++ x :: b))
    (h' : Lexes s' (a ++ y :: b)) {ds ds' : List Definition} (hp : weedleParse s = .ok ds) (hp' : weedleParse s' = .ok ds') : False := by
  obtain ⟨o, c, hm, hoc, hx⟩ := bracket_pair hx
  have h1 := balanced_of h hp hm
  have h2 := balanced_of h' hp' hm
  simp only [List.count_append, List.count_cons, beq_iff_eq] at h1 h2
  rcases hx with rfl | rfl
  · simp only [hoc, hne.symm, if_true, if_false] at h1 h2; split at h2 <;> omega
  · simp only [hoc.symm, hne.symm, if_true, if_false] at h1 h2; split at h2 <;> omega

/-- If a bracket is left out of an accepted text, the text is rejected. -/
theorem C70_missing_bracket (s s' : Str) (a b : List Str) (x : Str) (hx : x ∈ bracketItems) (h : Lexes s (a ++ x :: b)) (h' : Lexes s' (a ++ b))
    (ds : List Definition) (hp : weedleParse s = .ok ds) : weedleParse s' = .panic :=
  panics fun _ hp' => bracket_lacked hx h h' hp hp'

/-- If a bracket is inserted into an accepted text, the text is rejected. -/
theorem C70_extra_bracket (s s' : Str) (a b : List Str) (x : Str) (hx : x ∈ bracketItems) (h : Lexes s (a ++ b)) (h' : Lexes s' (a ++ x :: b))
    (ds : List Definition) (hp : weedleParse s = .ok ds) : weedleParse s' = .panic :=
  panics fun _ hp' => bracket_lacked hx h' h hp' hp

/-- If a bracket of an accepted text is replaced by another item, or another item by a bracket, the text is rejected. -/
theorem C70_changed_bracket (s s' : Str) (a b : List Str) (x y : Str) (hx : x ∈ bracketItems ∨ y ∈ bracketItems) (hne : x ≠ y)
    (h : Lexes s (a ++ x :: b)) (h' : Lexes s' (a ++ y :: b)) (ds : List Definition) (hp : weedleParse s = .ok ds) :
    weedleParse s' = .panic :=
  panics fun _ hp' => hx.elim (fun hx => bracket_changed hx hne h h' hp hp') fun hy => bracket_changed hy hne.symm h' h hp' hp

private theorem literal_lacked {s s' : Str} {a b : List Str} {x : Str} (hx : IsString x ∨ IsNumber x) (h : Lexes s (a ++ x :: b))
    (h' : Lexes s' (a ++ b)) {ds ds' : List Definition} (hp : weedleParse s = .ok ds) (hp' : weedleParse s' = .ok ds') :
    LiteralMayLack a b := by
  have h1 := accepted_lexes hp h
  have h2 := accepted_lexes hp' h'
  obtain ⟨⟨a, rfl⟩, h3 | ⟨c, t, rfl, o, hc⟩⟩ := lackLit (a := a) (b := b) hx (by simpa using acc_definitions fr_empty h1)
    (acc_definitions fr_empty h2)
  · subst h3
    have hd : ds' ≠ [] := by
      rintro rfl
      have : a ++ [c!","] ++ [] = [] := h2
      simp at this
    obtain ⟨y, hy⟩ := semi_definitions hd _ h2
    rw [List.append_nil] at hy
    have := (List.append_inj' hy rfl).2
    simp at this
  · have hp2 : c ∈ punctuation := by
      simp only [pairs, List.mem_cons, List.not_mem_nil, or_false, Prod.mk.injEq] at hc
      rcases hc with ⟨-, rfl⟩ | ⟨-, rfl⟩ | ⟨-, rfl⟩ | ⟨-, rfl⟩ <;> decide
    have hf := (C37_follow c!"," c (by decide) hp2).2 ⟨s', _, ds', hp', h', ⟨a, t, by simp⟩⟩
    simp only [pairs, List.mem_cons, List.not_mem_nil, or_false, Prod.mk.injEq] at hc
    rcases hc with ⟨-, rfl⟩ | ⟨-, rfl⟩ | ⟨-, rfl⟩ | ⟨-, rfl⟩
    · exact absurd hf (by decide)
    · exact absurd hf (by decide)
    · exact .last
    · exact absurd hf (by decide)

/-- If a string or a number is left out of an accepted text, the text is rejected, unless it is the last string of an enum, after a
comma. -/
theorem C70_missing_literal (s s' : Str) (a b : List Str) (x : Str) (hx : IsString x ∨ IsNumber x) (h : Lexes s (a ++ x :: b))
    (h' : Lexes s' (a ++ b)) (hn : ¬ LiteralMayLack a b) (ds : List Definition) (hp : weedleParse s = .ok ds) : weedleParse s' = .panic :=
  panics fun _ hp' => hn (literal_lacked hx h h' hp hp')

/-- If a string or a number is inserted into an accepted text, the text is rejected, apart from the same place. -/
theorem C70_extra_literal (s s' : Str) (a b : List Str) (x : Str) (hx : IsString x ∨ IsNumber x) (h : Lexes s (a ++ b))
    (h' : Lexes s' (a ++ x :: b)) (hn : ¬ LiteralMayLack a b) (ds : List Definition) (hp : weedleParse s = .ok ds) :
    weedleParse s' = .panic :=
  panics fun _ hp' => hn (literal_lacked hx h' h hp' hp)

private theorem flat_or {y : Str} : y ∈ bracketItems ∨ Flat y := by
  by_cases h : Flat y
  · exact .inr h
  · refine .inl ?_
    simp only [Flat, pairs, List.mem_cons, List.not_mem_nil, or_false] at h
    simp only [forall_eq_or_imp, forall_eq] at h
    simp only [bracketItems, List.mem_cons, List.not_mem_nil, or_false]
    grind

private theorem eq_dots {s : Str} {a b : List Str} (h : Lexes s (a ++ [c!"="] ++ c!"..." :: b)) {ds : List Definition}
    (hp : weedleParse s = .ok ds) : False := by
  have hf := (C37_follow c!"=" c!"..." (by decide) (by decide)).2 ⟨s, _, ds, hp, h, ⟨a, b, by simp⟩⟩
  exact absurd hf (by decide)

/-- If a number of an accepted text is replaced by another item and the text is still accepted, then there is `=` before it, and the
other item is a number, a string, or one of the keywords that are values. -/
theorem C70_changed_number (s s' : Str) (a b : List Str) (x y : Str) (hx : IsNumber x) (h : Lexes s (a ++ x :: b))
    (h' : Lexes s' (a ++ y :: b)) (ds ds' : List Definition) (hp : weedleParse s = .ok ds) (hp' : weedleParse s' = .ok ds') :
    (∃ a', a = a' ++ [c!"="]) ∧ (IsString y ∨ IsNumber y ∨ y ∈ valueKeywords) := by
  by_cases hne : x = y
  · subst hne
    obtain ⟨h1, -⟩ := changeNumber (a := a) (b := b) hx (number_flat hx) (by simpa using acc_definitions fr_empty (accepted_lexes hp h))
      (by simpa using acc_definitions fr_empty (accepted_lexes hp h))
    exact ⟨h1, .inr (.inl hx)⟩
  rcases flat_or (y := y) with hy | hy
  · exact (bracket_changed hy (Ne.symm hne) h' h hp' hp).elim
  · obtain ⟨⟨a, rfl⟩, h2 | h2 | h2 | rfl⟩ := changeNumber (a := a) (b := b) hx hy
      (by simpa using acc_definitions fr_empty (accepted_lexes hp h)) (by simpa using acc_definitions fr_empty (accepted_lexes hp' h'))
    · exact ⟨⟨a, rfl⟩, .inl h2⟩
    · exact ⟨⟨a, rfl⟩, .inr (.inl h2)⟩
    · exact ⟨⟨a, rfl⟩, .inr (.inr h2)⟩
    · exact (eq_dots h' hp').elim

/-- If a string of an accepted text is replaced by an item that is not a string and the text is still accepted, then there is `=`
before it, and the other item is a number, a word, or `*`. -/
theorem C70_changed_string (s s' : Str) (a b : List Str) (x y : Str) (hx : IsString x) (hy : ¬ IsString y) (h : Lexes s (a ++ x :: b))
    (h' : Lexes s' (a ++ y :: b)) (ds ds' : List Definition) (hp : weedleParse s = .ok ds) (hp' : weedleParse s' = .ok ds') :
    (∃ a', a = a' ++ [c!"="]) ∧ (IsNumber y ∨ IsWord y ∨ y = c!"*") := by
  have hne : x ≠ y := by rintro rfl; exact hy hx
  rcases flat_or (y := y) with hf | hf
  · exact (bracket_changed hf hne.symm h' h hp' hp).elim
  · obtain ⟨⟨a, rfl⟩, h2 | h2 | h2 | rfl⟩ := changeString (a := a) (b := b) hx hf hy
      (by simpa using acc_definitions fr_empty (accepted_lexes hp h)) (by simpa using acc_definitions fr_empty (accepted_lexes hp' h'))
    · exact ⟨⟨a, rfl⟩, .inl h2⟩
    · exact ⟨⟨a, rfl⟩, .inr (.inl h2)⟩
    · exact ⟨⟨a, rfl⟩, .inr (.inr h2)⟩
    · exact (eq_dots h' hp').elim

/-- If a word of an accepted text that is not a keyword is replaced by a punctuation mark, the text is rejected, apart from the places
listed in `MarkMayReplace`. -/
theorem C70_mark_for_word (s s' : Str) (a b : List Str) (x k : Str) (hx : PlainName x) (hk : k ∈ signs) (h : Lexes s (a ++ x :: b))
    (h' : Lexes s' (a ++ k :: b)) (hn : ¬ MarkMayReplace a k b) (ds : List Definition) (hp : weedleParse s = .ok ds) :
    weedleParse s' = .panic :=
  panics fun _ hp' => hn (changeMark hx hk (by simpa using acc_definitions fr_empty (accepted_lexes hp h))
    (by simpa using acc_definitions fr_empty (accepted_lexes hp' h')))

/-- If a punctuation mark of an accepted text is replaced by a word that is not a keyword, the text is rejected, apart from the same
places. -/
theorem C70_word_for_mark (s s' : Str) (a b : List Str) (x k : Str) (hx : PlainName x) (hk : k ∈ signs) (h : Lexes s (a ++ k :: b))
    (h' : Lexes s' (a ++ x :: b)) (hn : ¬ MarkMayReplace a k b) (ds : List Definition) (hp : weedleParse s = .ok ds) :
    weedleParse s' = .panic :=
  panics fun _ hp' => hn (changeMark hx hk (by simpa using acc_definitions fr_empty (accepted_lexes hp' h'))
    (by simpa using acc_definitions fr_empty (accepted_lexes hp h)))

/-- If a keyword of an accepted text, where it is not also a name, is replaced by another keyword and the text is still accepted, then
the keywords are in one of the lists of `exchangeable`, or the second is a name in the second text. -/
theorem C70_exchanged_keyword (s s' : Str) (a b : List Str) (k k' : Str) (hk : k ∈ grammarWords) (hk' : k' ∈ grammarWords)
    (ht : k ∉ typeKeywords) (ht' : k' ∉ typeKeywords) (hne : k ≠ k') (h : Lexes s (a ++ k :: b)) (h' : Lexes s' (a ++ k' :: b))
    (ds ds' : List Definition) (hp : weedleParse s = .ok ds) (hp' : weedleParse s' = .ok ds') (hd : k ∉ names ds) (hd' : k' ∉ names ds') :
    ∃ c ∈ exchangeable, k ∈ c ∧ k' ∈ c := by
  obtain ⟨w, hm, rfl⟩ := kws_spec hk ht
  obtain ⟨w', hm', rfl⟩ := kws_spec hk' ht'
  have : NotType w.text := ⟨free_kws w hm⟩
  have : NotType w'.text := ⟨free_kws w' hm'⟩
  exact changeKwKw (a := a) hm hm' (fun e => hne (by rw [e])) (by simpa using acc_definitions (fr_keyword hd) (accepted_lexes hp h))
    (by simpa using acc_definitions (fr_keyword hd') (accepted_lexes hp' h'))

/-! ### Cases of the theorems -/

private theorem plain {x : Str} (h : (match x with | c :: _ => c.isAlpha | [] => false) = Bool.true) (h' : x ∉ grammarWords) : PlainName x := by
  cases x with
  | nil => simp at h
  | cons c v => exact ⟨⟨c, v, rfl, .inl h⟩, h'⟩

example : weedleParse c!"enum A { \"b\" ;" = .panic :=
  C70_missing_bracket c!"enum A { \"b\" };" _ [c!"enum", c!"A", c!"{", c!"\"b\""] [c!";"] c!"}" (by decide)
    (lexes_sound (by decide +kernel)) (lexes_sound (by decide +kernel)) _ rfl

example : weedleParse c!"typedef sequence<long>> A;" = .panic :=
  C70_extra_bracket c!"typedef sequence<long> A;" _ [c!"typedef", c!"sequence", c!"<", c!"long", c!">"] [c!"A", c!";"] c!">" (by decide)
    (lexes_sound (by decide +kernel)) (lexes_sound (by decide +kernel)) _ rfl

example : weedleParse c!"typedef sequence<long) A;" = .panic :=
  C70_changed_bracket c!"typedef sequence<long> A;" _ [c!"typedef", c!"sequence", c!"<", c!"long"] [c!"A", c!";"] c!">" c!")" (by decide)
    (by decide) (lexes_sound (by decide +kernel)) (lexes_sound (by decide +kernel)) _ rfl

example : weedleParse c!"dictionary A { long b = ; };" = .panic :=
  C70_missing_literal c!"dictionary A { long b = 1; };" _ [c!"dictionary", c!"A", c!"{", c!"long", c!"b", c!"="] [c!";", c!"}", c!";"] c!"1"
    (.inr ⟨⟨_, _, rfl, .inl rfl⟩, by decide⟩) (lexes_sound (by decide +kernel)) (lexes_sound (by decide +kernel))
    (by
      generalize ha : [c!"dictionary", c!"A", c!"{", c!"long", c!"b", c!"="] = a
      generalize hb : [c!";", c!"}", c!";"] = b
      intro h; cases h; revert hb; simp) _ rfl

example : weedleParse c!"enum A { \"b\" \"c\" };" = .panic :=
  C70_extra_literal c!"enum A { \"b\" };" _ [c!"enum", c!"A", c!"{", c!"\"b\""] [c!"}", c!";"] c!"\"c\"" (.inl ⟨_, rfl⟩)
    (lexes_sound (by decide +kernel)) (lexes_sound (by decide +kernel))
    (by generalize ha : [c!"enum", c!"A", c!"{", c!"\"b\""] = a; intro h; cases h; have := congrArg List.reverse ha; revert this; simp) _ rfl

/-- A number of an accepted text is not replaced by a word unnoticed. -/
example (ds : List Definition) : weedleParse c!"dictionary A { long b = c; };" ≠ .ok ds := fun hp => by
  have := (C70_changed_number c!"dictionary A { long b = 1; };" _ [c!"dictionary", c!"A", c!"{", c!"long", c!"b", c!"="] [c!";", c!"}", c!";"]
    c!"1" c!"c" ⟨⟨_, _, rfl, .inl rfl⟩, by decide⟩ (lexes_sound (by decide +kernel)) (lexes_sound (by decide +kernel)) _ ds rfl hp).2
  rcases this with ⟨v, hv⟩ | ⟨⟨c, v, hv, hc⟩, -⟩ | h
  · cases hv
  · cases hv; revert hc; decide
  · revert h; decide

/-- A string of an enum is not replaced by a word unnoticed. -/
example (ds : List Definition) : weedleParse c!"enum A { b };" ≠ .ok ds := fun hp => by
  obtain ⟨a', ha⟩ := (C70_changed_string c!"enum A { \"b\" };" _ [c!"enum", c!"A", c!"{"] [c!"}", c!";"] c!"\"b\"" c!"b" ⟨_, rfl⟩
    (by rintro ⟨v, hv⟩; cases hv) (lexes_sound (by decide +kernel)) (lexes_sound (by decide +kernel)) _ ds rfl hp).1
  have := congrArg List.reverse ha
  revert this; simp

example : weedleParse c!"typedef long ;;" = .panic :=
  C70_mark_for_word c!"typedef long A;" _ [c!"typedef", c!"long"] [c!";"] c!"A" c!";" (plain rfl (by decide)) (by decide)
    (lexes_sound (by decide +kernel)) (lexes_sound (by decide +kernel))
    (by
      generalize ha : [c!"typedef", c!"long"] = a
      generalize hk : c!";" = k
      rintro (_ | _ | _ | _)
      all_goals first | (revert hk; decide) | (have := congrArg List.reverse ha; revert this; simp)) _ rfl

example : weedleParse c!"interface A x B { };" = .panic :=
  C70_word_for_mark c!"interface A : B { };" _ [c!"interface", c!"A"] [c!"B", c!"{", c!"}", c!";"] c!"x" c!":" (plain rfl (by decide)) (by decide)
    (lexes_sound (by decide +kernel)) (lexes_sound (by decide +kernel))
    (by
      generalize ha : [c!"interface", c!"A"] = a
      generalize hk : c!":" = k
      rintro (_ | _ | _ | _)
      all_goals (revert hk; decide)) _ rfl

/-- `enum` does not take the place of `interface` unnoticed. -/
example (ds : List Definition) (hd : c!"enum" ∉ names ds) : weedleParse c!"enum A { };" ≠ .ok ds := fun hp => by
  obtain ⟨c, hc, h1, h2⟩ := C70_exchanged_keyword c!"interface A { };" _ [] [c!"A", c!"{", c!"}", c!";"] c!"interface" c!"enum" (by decide)
    (by decide) (by decide) (by decide) (by decide) (lexes_sound (by decide +kernel)) (lexes_sound (by decide +kernel)) _ ds rfl hp (by decide) hd
  revert h2 h1 hc
  revert c
  decide

/-! ### The exceptions are real: both texts are accepted -/

private def Ok (s : Str) : Prop := ∃ ds, weedleParse s = .ok ds

example : Ok c!"enum A { \"b\", \"c\" };" ∧ Ok c!"enum A { \"b\", };" := ⟨⟨_, rfl⟩, ⟨_, rfl⟩⟩
example : Ok c!"interface A { B c(); };" ∧ Ok c!"interface A { B ?(); };" := ⟨⟨_, rfl⟩, ⟨_, rfl⟩⟩
example : Ok c!"[A=b] c includes d;" ∧ Ok c!"[A=*] c includes d;" := ⟨⟨_, rfl⟩, ⟨_, rfl⟩⟩
example : Ok c!"[A=\"b\"] c includes d;" ∧ Ok c!"[A=*] c includes d;" ∧ Ok c!"[A=b] c includes d;" := ⟨⟨_, rfl⟩, ⟨_, rfl⟩, ⟨_, rfl⟩⟩
example : Ok c!"dictionary A { long b = \"c\"; };" ∧ Ok c!"dictionary A { long b = 1; };" ∧ Ok c!"dictionary A { long b = null; };" :=
  ⟨⟨_, rfl⟩, ⟨_, rfl⟩, ⟨_, rfl⟩⟩
example : Ok c!"interface A { void b(optional C d); };" ∧ Ok c!"interface A { void b(optional ... d); };" := ⟨⟨_, rfl⟩, ⟨_, rfl⟩⟩
example : Ok c!"interface A { stringifier B c(); };" ∧ Ok c!"interface A { stringifier; c(); };" := ⟨⟨_, rfl⟩, ⟨_, rfl⟩⟩
example : Ok c!"callback interface A {};" ∧ Ok c!"partial interface A {};" := ⟨⟨_, rfl⟩, ⟨_, rfl⟩⟩
example : Ok c!"interface A {};" ∧ Ok c!"dictionary A {};" ∧ Ok c!"namespace A {};" := ⟨⟨_, rfl⟩, ⟨_, rfl⟩, ⟨_, rfl⟩⟩
example : Ok c!"A includes B;" ∧ Ok c!"A implements B;" := ⟨⟨_, rfl⟩, ⟨_, rfl⟩⟩
example : Ok c!"interface A { getter B c(); };" ∧ Ok c!"interface A { setter B c(); };" ∧ Ok c!"interface A { deleter B c(); };" ∧
    Ok c!"interface A { legacycaller B c(); };" ∧ Ok c!"interface A { static B c(); };" ∧ Ok c!"interface A { stringifier B c(); };" :=
  ⟨⟨_, rfl⟩, ⟨_, rfl⟩, ⟨_, rfl⟩, ⟨_, rfl⟩, ⟨_, rfl⟩, ⟨_, rfl⟩⟩
example : Ok c!"interface A { inherit attribute B c; };" ∧ Ok c!"interface A { readonly attribute B c; };" ∧
    Ok c!"interface A { static attribute B c; };" ∧ Ok c!"interface A { stringifier attribute B c; };" :=
  ⟨⟨_, rfl⟩, ⟨_, rfl⟩, ⟨_, rfl⟩, ⟨_, rfl⟩⟩
example : Ok c!"interface A { iterable<B, C>; };" ∧ Ok c!"interface A { maplike<B, C>; };" := ⟨⟨_, rfl⟩, ⟨_, rfl⟩⟩
example : Ok c!"interface A { iterable<B>; };" ∧ Ok c!"interface A { setlike<B>; };" := ⟨⟨_, rfl⟩, ⟨_, rfl⟩⟩
example : Ok c!"typedef FrozenArray<A> B;" ∧ Ok c!"typedef Promise<A> B;" ∧ Ok c!"typedef sequence<A> B;" := ⟨⟨_, rfl⟩, ⟨_, rfl⟩, ⟨_, rfl⟩⟩
example : Ok c!"interface A { const float b = true; };" ∧ Ok c!"interface A { const float b = false; };" ∧
    Ok c!"interface A { const float b = null; };" ∧ Ok c!"interface A { const float b = Infinity; };" ∧
    Ok c!"interface A { const float b = NaN; };" := ⟨⟨_, rfl⟩, ⟨_, rfl⟩, ⟨_, rfl⟩, ⟨_, rfl⟩, ⟨_, rfl⟩⟩

end Verif.Properties
