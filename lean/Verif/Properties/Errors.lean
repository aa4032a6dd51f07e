import Verif.Proof.Errors
import Verif.Properties.Robustness

/-!
# C54: which error is returned

`Skips s r` (`Verif/Spec/Lexical.lean`): `r` is `s` without the trivia at its beginning.
-/

namespace Verif.Properties
open Nom Spec

/-! ## Terminals -/

/-- A symbol that is not there: the position is that of the next character that is not trivia. -/
theorem C54_symbol (p : Punct) (s r : Str) (hr : Skips s r) (e : Err Char) :
    (G.punct p).parse s = .err e ↔ ¬ p.text <+: r ∧ e = .error r .tag := by
  show map _ (ws (tag p.text)) s = _ ↔ _
  have : map (fun _ => ()) (ws (tag p.text)) s = .err e ↔ ws (tag p.text) s = .err e := by
    simp only [map, seq, ret]
    cases ws (tag p.text) s <;> simp
  rw [this, ws_err hr, tag]
  split
  · rename_i h
    simp [List.isPrefixOf_iff_prefix.1 h]
  · rename_i h
    rw [List.isPrefixOf_iff_prefix] at h
    simp [h, err_iff]

example : (G.punct .semiColon).parse c!" /**/ }" = .err (.error c!"}" .tag) :=
  (C54_symbol _ _ c!"}" (skips_iff.2 rfl) _).2 ⟨by decide, rfl⟩

/-- A keyword that is not there, or goes on. -/
theorem C54_keyword (k : Kw) (s r : Str) (hr : Skips s r) (e : Err Char) :
    (G.kw k).parse s = .err e ↔
      (¬ k.text <+: r ∨ ∃ c u, r = k.text ++ c :: u ∧ (c.isAlphanum ∨ c = '_' ∨ c = '-')) ∧ e = .error r .tag := by
  show map _ (ws (identTag k.text)) s = _ ↔ _
  have : map (fun _ => ()) (ws (identTag k.text)) s = .err e ↔ ws (identTag k.text) s = .err e := by
    simp only [map, seq, ret]
    cases ws (identTag k.text) s <;> simp
  rw [this, ws_err hr, identTag, tag]
  by_cases h : k.text <+: r
  · obtain ⟨u, rfl⟩ := h
    rw [if_pos (List.isPrefixOf_iff_prefix.2 ⟨u, rfl⟩)]
    simp only [List.drop_left]
    match u with
    | [] => simp
    | c :: u =>
      dsimp only
      split
      · rename_i h
        simp only [isIdentByte, Bool.or_eq_true, beq_iff_eq, or_assoc] at h
        simp [h, err_iff]
      · rename_i h
        simp only [isIdentByte, Bool.or_eq_true, beq_iff_eq, or_assoc] at h
        simp [h]
  · rw [if_neg (fun h' => h (List.isPrefixOf_iff_prefix.1 h'))]
    simp [h, err_iff]

example : (G.kw .long).parse c!" longer" = .err (.error c!"longer" .tag) :=
  (C54_keyword _ _ c!"longer" (skips_iff.2 rfl) _).2 ⟨.inr ⟨'e', _, rfl, by decide⟩, rfl⟩

/-- No name: after an underscore, if there is one, there is no letter. -/
theorem C54_identifier (s r u : Str) (hr : Skips s r) (hu : Without '_' r u) (e : Err Char) :
    G.ident.parse s = .err e ↔ ¬ BeginsWith Char.isAlpha u ∧ e = .error u .takeWhile1 := by
  show identP s = _ ↔ _
  obtain ⟨o, ho⟩ := without_opt hu
  rw [identP, ws_err hr, ← takeWhile1_err]
  simp only [seq, ho, recognize, takeWhile, ret]
  cases takeWhile1 Char.isAlpha u <;> simp

example : G.ident.parse c!" __a" = .err (.error c!"_a" .takeWhile1) :=
  (C54_identifier _ c!"__a" c!"_a" (skips_iff.2 rfl) (.inl rfl) _).2 ⟨by rintro ⟨c, v, h, h'⟩; cases h; revert h'; decide, rfl⟩

/-- No decimal: after a sign, if there is one, there is no digit other than zero. -/
theorem C54_decimal (s r u : Str) (hr : Skips s r) (hu : Without '-' r u) (e : Err Char) :
    (G.leaf Leaf.dec).parse s = .err e ↔ ¬ BeginsWith (fun c => '1' ≤ c && c ≤ '9') u ∧ e = .error u .oneOf := by
  show decP s = _ ↔ _
  obtain ⟨o, ho⟩ := without_opt hu
  have : oneOf c!"123456789" u = .err e ↔ ¬ BeginsWith (fun c => '1' ≤ c && c ≤ '9') u ∧ e = .error u .oneOf := by
    unfold oneOf BeginsWith
    cases u with
    | nil => simp [err_iff]
    | cons c u =>
      by_cases h : '1' ≤ c ∧ c ≤ '9' <;> simp only [digit19] <;> simp [h, err_iff]
  rw [decP, ws_err hr, ← this]
  simp only [seq, ho, recognize, takeWhile, ret]
  cases oneOf c!"123456789" u <;> simp

example : (G.leaf Leaf.dec).parse c!" -0" = .err (.error c!"0" .oneOf) :=
  (C54_decimal _ c!"-0" c!"0" (skips_iff.2 rfl) (.inl rfl) _).2 ⟨by rintro ⟨c, v, h, h'⟩; cases h; revert h'; decide, rfl⟩

/-- No octal: after a sign, if there is one, there is no zero. -/
theorem C54_octal (s r u : Str) (hr : Skips s r) (hu : Without '-' r u) (e : Err Char) :
    (G.leaf Leaf.oct).parse s = .err e ↔ ¬ BeginsWith (· == '0') u ∧ e = .error u .char := by
  show octP s = _ ↔ _
  obtain ⟨o, ho⟩ := without_opt hu
  rw [octP, ws_err hr, ← char_err]
  simp only [seq, ho, recognize, takeWhile, ret]
  cases char '0' u <;> simp

example : (G.leaf Leaf.oct).parse c!" -10" = .err (.error c!"10" .char) :=
  (C54_octal _ c!"-10" c!"10" (skips_iff.2 rfl) (.inl rfl) _).2 ⟨by rintro ⟨c, v, h, h'⟩; cases h; revert h'; decide, rfl⟩

/-- No hexadecimal: after a sign, if there is one, there is no zero, or no `x` after it. -/
theorem C54_hexadecimal (s r u : Str) (hr : Skips s r) (hu : Without '-' r u) (e : Err Char) :
    (G.leaf Leaf.hex).parse s = .err e ↔
      (¬ BeginsWith (· == '0') u ∧ e = .error u .char) ∨
      ∃ v, u = '0' :: v ∧ ¬ BeginsWith (fun c => c == 'x' || c == 'X') v ∧ e = .error v .alt := by
  show hexP s = _ ↔ _
  obtain ⟨o, ho⟩ := without_opt hu
  rw [hexP, ws_err hr, ← char_err]
  simp only [seq, ho, recognize, takeWhile, ret]
  match u with
  | [] => simp [char]
  | c :: v =>
    by_cases hc : c = '0'
    · subst hc
      simp only [char, if_true, reduceCtorEq, false_or, List.cons.injEq, true_and, exists_eq_left']
      unfold BeginsWith
      match v with
      | [] => simp [alt, orElse, altEnd, char, err_iff]
      | d :: v =>
        by_cases h1 : d = 'x'
        · simp [alt, orElse, altEnd, char, h1]
        · by_cases h2 : d = 'X'
          · simp [alt, orElse, altEnd, char, h2]
          · simp [alt, orElse, altEnd, char, h1, h2, err_iff]
    · simp [char, hc]

example : (G.leaf Leaf.hex).parse c!" -01" = .err (.error c!"1" .alt) :=
  (C54_hexadecimal _ c!"-01" c!"01" (skips_iff.2 rfl) (.inl rfl) _).2
    (.inr ⟨c!"1", rfl, by rintro ⟨c, v, h, h'⟩; cases h; revert h'; decide, rfl⟩)

/-- No string: there is no opening quote, or no closing quote up to the end of the text. -/
theorem C54_string (s r : Str) (hr : Skips s r) (e : Err Char) :
    G.stringLit.parse s = .err e ↔
      (¬ BeginsWith (· == '"') r ∧ e = .error r .char) ∨ (∃ v, r = '"' :: v ∧ '"' ∉ v ∧ e = .error [] .char) := by
  show stringP s = _ ↔ _
  rw [stringP, ws_err hr, ← char_err]
  simp only [seq, takeWhile, ret]
  match r with
  | [] => simp [char]
  | c :: v =>
    by_cases hc : c = '"'
    · subst hc
      simp only [char, if_true, reduceCtorEq, false_or, List.cons.injEq, true_and, exists_eq_left']
      have : v.dropWhile (fun c => c != '"') = [] ↔ '"' ∉ v := by
        constructor
        · intro h h'
          simpa using dropWhile_nil h _ h'
        · intro h
          exact dropWhile_all fun x hx => by
            simp only [bne_iff_ne]
            rintro rfl
            exact h hx
      cases h : v.dropWhile (fun c => c != '"') with
      | nil => simp [← this, h, err_iff]
      | cons d w =>
        have hd : d = '"' := by
          have := List.head_dropWhile_not (p := fun c => c != '"') (l := v) (by simp [h])
          simpa [h] using this
        simp [← this, h, hd]
    · simp [char, hc]

example : G.stringLit.parse c!" \"abc" = .err (.error [] .char) :=
  (C54_string _ c!"\"abc" (skips_iff.2 rfl) _).2 (.inr ⟨_, rfl, by decide, rfl⟩)

/-- No floating point number: the error is at the text after the sign. -/
theorem C54_float (s r u : Str) (hr : Skips s r) (hu : Without '-' r u) (e : Err Char)
    (h : (G.leaf Leaf.float).parse s = .err e) : e = .error u .alt := by
  have h' : floatP s = .err e := h
  obtain ⟨o, ho⟩ := without_opt hu
  rw [floatP, ws_err hr] at h'
  have hf := C07_errors .float s e h
  obtain ⟨v, k, rfl, -⟩ := hf
  simp only [seq, ho, recognize] at h'
  split at h'
  · cases h'
  · rename_i e' he
    cases h'
    split at he
    · cases he
    · rename_i e'' he'
      cases he
      obtain ⟨rfl, rfl⟩ := alt_err he'
      rfl
    · cases he
  · cases h'

example : (G.leaf Leaf.float).parse c!" -1" = .err (.error c!"1" .alt) := by
  obtain ⟨e, h⟩ : ∃ e, (G.leaf Leaf.float).parse c!" -1" = .err e := ⟨_, rfl⟩
  rw [h, C54_float _ c!"-1" c!"1" (skips_iff.2 rfl) (.inl rfl) e h]

/-! ## Enums -/

/-- The enums of the crate. -/
inductive IsEnum : {α : Type} → G α → Prop where
  | integerLit : IsEnum G.integerLit
  | floatLit : IsEnum G.floatLit
  | booleanLit : IsEnum G.booleanLit
  | defaultValue : IsEnum G.defaultValue
  | constValue : IsEnum G.constValue
  | identifierOrString : IsEnum G.identifierOrString
  | extAttr : IsEnum G.extAttr
  | integerType : IsEnum G.integerType
  | floatingPointType : IsEnum G.floatingPointType
  | recordKeyType : IsEnum G.recordKeyType
  | nonAnyType : IsEnum G.nonAnyType
  | singleType : IsEnum G.singleType
  | type : IsEnum G.type
  | unionMemberType : IsEnum G.unionMemberType
  | constType : IsEnum G.constType
  | returnType : IsEnum G.returnType
  | argument : IsEnum G.argument
  | stringifierOrInheritOrStatic : IsEnum G.stringifierOrInheritOrStatic
  | stringifierOrStatic : IsEnum G.stringifierOrStatic
  | special : IsEnum G.special
  | iterableInterfaceMember : IsEnum G.iterableInterfaceMember
  | asyncIterableInterfaceMember : IsEnum G.asyncIterableInterfaceMember
  | interfaceMember : IsEnum G.interfaceMember
  | mixinMember : IsEnum G.mixinMember
  | namespaceMember : IsEnum G.namespaceMember
  | definition : IsEnum G.definition

/-- The error of an enum says nothing: it is at the very beginning of the text, and of the kind `Alt`. -/
theorem C54_enum {α : Type} {g : G α} (hg : IsEnum g) (s : Str) (e : Err Char) (h : g.parse s = .err e) : e = .error s .alt := by
  obtain ⟨b, ht⟩ : ∃ b, IsType g b := by cases hg <;> exact ⟨true, by constructor⟩
  obtain ⟨v, k, rfl, -⟩ := C07_errors ht s e h
  have : v = s ∧ k = .alt := by cases hg <;> exact alts_err h
  rw [this.1, this.2]

example : G.definition.parse c!"interface A { attribute long };" = .err (.error c!"interface A { attribute long };" .alt) := by
  obtain ⟨e, h⟩ : ∃ e, G.definition.parse c!"interface A { attribute long };" = .err e := ⟨_, rfl⟩
  rw [h, C54_enum .definition _ e h]

/-! ## Options and lists -/

theorem returns {α : Type} {g : G α} {b : Bool} (h : IsType g b) (s : Str) (hn : ∀ u k, g.parse s ≠ .err (.error u k)) :
    ∃ r a, g.parse s = .ok r a := by
  cases e : g.parse s with
  | ok r a => exact ⟨r, a, rfl⟩
  | err e' =>
    obtain ⟨v, k, rfl, -⟩ := C07_errors h s e' e
    exact absurd e (hn v k)
  | diverge =>
    obtain ⟨_, _, h'⟩ := C01_terminates h s
    exact absurd e h'

theorem consumes {α : Type} {g : G α} (h : IsType g true) : Consumes g.parse := fun s r a e => (C06_suffix h s r a e).2 rfl

/-- `Option<T>` never fails. -/
theorem C54_option {α : Type} {g : G α} {b : Bool} (h : IsType g b) (s : Str) : ∃ r o, (G.opt g).parse s = .ok r o := by
  refine returns (.option h) s fun u k e => ?_
  change opt g.parse s = _ at e
  unfold opt at e
  split at e
  · cases e
  · cases e
  · rename_i hn _
    cases e
    exact hn _ _ rfl
  · cases e

example (s : Str) : ∃ r o, (G.opt G.definition).parse s = .ok r o := C54_option .definition s

/-- `Vec<T>` never fails, for types `T` that are never empty. -/
theorem C54_vec {α : Type} {g : G α} (h : IsType g true) (s : Str) : ∃ r l, (G.many0 g).parse s = .ok r l :=
  returns (.vec h) s fun _ _ => many0Loop_err (consumes h)

example (s : Str) : ∃ r l, (G.many0 G.interfaceMember).parse s = .ok r l := C54_vec .interfaceMember s

/-- `Punctuated<T, S>` never fails. -/
theorem C54_punctuated {α β : Type} {g : G α} {sep : G β} (h : IsType g true) (hs : IsType sep true) (s : Str) :
    ∃ r l, (g.punctuated sep).parse s = .ok r l :=
  returns (.punctuated h hs) s fun _ _ => separatedList_err (consumes hs) (consumes h)

example (s : Str) : ∃ r l, (G.punctuated G.argument (G.punct .comma)).parse s = .ok r l := C54_punctuated .argument (.punct _) s

/-- `PunctuatedNonEmpty<T, S>` fails as its first element does. -/
theorem C54_nonempty {α β : Type} {g : G α} {sep : G β} (h : IsType g true) (hs : IsType sep true) (s : Str) (e : Err Char) :
    (g.punctuatedNonEmpty sep).parse s = .err e ↔ g.parse s = .err e := by
  have key : ∀ u k, (g.punctuatedNonEmpty sep).parse s = .err (.error u k) ↔ g.parse s = .err (.error u k) := fun u k => by
    rw [← separatedNonemptyList_err (consumes hs) (consumes h)]
    show seq (separatedNonemptyList sep.parse g.parse) (fun l => seq (opt sep.parse) fun _ => ret l) s = _ ↔ _
    unfold seq
    cases separatedNonemptyList sep.parse g.parse s with
    | ok r l =>
      obtain ⟨r', o, ho⟩ := C54_option hs r
      change opt sep.parse r = _ at ho
      simp [ho, ret]
    | err e => simp
    | diverge => simp
  constructor
  · intro e'
    obtain ⟨v, k, rfl, -⟩ := C07_errors (.punctuatedNonEmpty h hs) s e e'
    exact (key v k).1 e'
  · intro e'
    obtain ⟨v, k, rfl, -⟩ := C07_errors h s e e'
    exact (key v k).2 e'

example : (G.stringLit.punctuatedNonEmpty (G.punct .comma)).parse c!" }" = .err (.error c!"}" .char) :=
  (C54_nonempty .stringLit (.punct _) _ _).2 rfl

/-- For a type `T` that may be empty and never fails, such as `Option<U>`, `Vec<T>` fails on every text. -/
theorem C54_vec_empty {α : Type} {g : G α} {b : Bool} (h : IsType g b) (hok : ∀ s, ∃ r a, g.parse s = .ok r a) (s : Str) :
    ∃ u, u <:+ s ∧ (G.many0 g).parse s = .err (.error u .many0) := by
  have hm : ∀ n s, s.length < n → ∃ u, u <:+ s ∧ many0Loop g.parse n s = .err (.error u .many0) := by
    intro n
    induction n with
    | zero => intro s h; omega
    | succ n ih =>
      intro s hs
      obtain ⟨r, a, hr⟩ := hok s
      have hsuf := (C06_suffix h s r a hr).1
      rw [many0Loop, hr]
      dsimp only
      split
      · exact ⟨s, List.suffix_rfl, rfl⟩
      · rename_i hne
        obtain ⟨u, hu, he⟩ := ih r (by have := suffix_ne_length hsuf hne; omega)
        exact ⟨u, hu.trans hsuf, by rw [he]; rfl⟩
  exact hm _ s (by omega)

example (s : Str) : ∃ u, u <:+ s ∧ (G.many0 (G.opt G.ident)).parse s = .err (.error u .many0) :=
  C54_vec_empty (.option .ident) (C54_option .ident) s

/-! ## Structs -/

/-- A struct fails as the first of its fields that fails, on what the fields before it left over. -/
theorem C54_fields {α β : Type} (g : G α) (f : α → G β) (s : Str) (e : Err Char) :
    (do let a ← g; f a).parse s = .err e ↔
      g.parse s = .err e ∨ ∃ r a, g.parse s = .ok r a ∧ (f a).parse r = .err e := by
  show seq g.parse (fun a => (f a).parse) s = _ ↔ _
  unfold seq
  cases g.parse s with
  | ok r a =>
    simp only [reduceCtorEq, false_or, Res.ok.injEq]
    exact ⟨fun h => ⟨r, a, ⟨rfl, rfl⟩, h⟩, fun ⟨_, _, ⟨h1, h2⟩, h⟩ => h1 ▸ h2 ▸ h⟩
  | err e' => simp
  | diverge => simp

example : G.interfaceDefinition.parse c!"interface A { attribute long };" = .err (.error c!"attribute long };" .tag) := by
  rfl

end Verif.Properties
