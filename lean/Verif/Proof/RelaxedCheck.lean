import Verif.Proof.RelaxedSound
import Verif.Proof.WebIDLCheck

/-!
# Checking that tokens are not derived

`restsIn` searches all derivations. It is used to show that concrete documents are not derived in a grammar.
-/

namespace Verif.WebIDL
open Nom Spec Spec.WebIDL

/-- All results for the elements of a list. -/
def collect {α β : Type} (f : α → Option (List β)) : List α → Option (List β)
  | [] => some []
  | a :: l =>
    match f a, collect f l with
    | some x, some y => some (x ++ y)
    | _, _ => none

theorem collect_mem {α β : Type} {f : α → Option (List β)} {l : List α} {ys : List β} (h : collect f l = some ys) {a : α}
    (ha : a ∈ l) : ∃ x, f a = some x ∧ ∀ b ∈ x, b ∈ ys := by
  induction l generalizing ys with
  | nil => simp at ha
  | cons c l ih =>
    unfold collect at h
    split at h
    · rename_i x y h1 h2
      simp at h
      subst h
      rcases List.mem_cons.1 ha with rfl | ha
      · exact ⟨x, h1, fun b hb => List.mem_append_left _ hb⟩
      · obtain ⟨z, hz, hm⟩ := ih h2 ha
        exact ⟨z, hz, fun b hb => List.mem_append_right _ (hm b hb)⟩
    · cases h

/-- Wider classes of tokens that can be decided. -/
structure Search where
  productions : NonTerminal → List Alt
  identifier : Str → Bool
  integer : Str → Bool
  decimal : Str → Bool
  string : Str → Bool

/-- What can be left of `ls` after the symbols; `none` if the depth `k` does not suffice to know. -/
def restsIn (C : Search) : Nat → Alt → List Str → Option (List (List Str))
  | 0, _, _ => none
  | _ + 1, [], ls => some [ls]
  | k + 1, .n N :: ss, ls =>
    match collect (fun rhs => restsIn C k rhs ls) (C.productions N) with
    | some rs => collect (fun r => restsIn C k ss r) rs
    | none => none
  | _ + 1, _ :: _, [] => some []
  | k + 1, .t w :: ss, v :: ls => if v = w then restsIn C k ss ls else some []
  | k + 1, .identifier :: ss, v :: ls => if C.identifier v then restsIn C k ss ls else some []
  | k + 1, .integer :: ss, v :: ls => if C.integer v then restsIn C k ss ls else some []
  | k + 1, .decimal :: ss, v :: ls => if C.decimal v then restsIn C k ss ls else some []
  | k + 1, .string :: ss, v :: ls => if C.string v then restsIn C k ss ls else some []

/-- The search finds the derivations of the grammar. -/
structure Covers (C : Search) (G : Grammar) : Prop where
  productions : ∀ N, ∀ rhs ∈ G.productions N, rhs ∈ C.productions N
  identifier : ∀ w, G.identifier w → C.identifier w = true
  integer : ∀ w, G.integer w → C.integer w = true
  decimal : ∀ w, Decimal w → C.decimal w = true
  string : ∀ w, Spec.WebIDL.String w → C.string w = true

theorem restsIn_complete {C : Search} {G : Grammar} (H : Covers C G) {k : Nat} {ss : Alt} {l r : List Str} {rs : List (List Str)}
    (h : restsIn C k ss (l ++ r) = some rs) (hd : DerivesAllIn G ss l) : r ∈ rs := by
  induction k generalizing ss l r rs with
  | zero => simp [restsIn] at h
  | succ k ih =>
    cases hd with
    | nil =>
      simp [restsIn] at h
      subst h
      simp
    | terminal hs =>
      simp only [restsIn, List.cons_append, if_true] at h
      exact ih h hs
    | nonTerminal hN hs =>
      rename_i N ss l ls
      rw [List.append_assoc] at h
      simp only [restsIn] at h
      split at h
      · rename_i rs' h'
        cases hN with
        | mk hr hl =>
          obtain ⟨x, hx, hm⟩ := collect_mem h' (H.productions N _ hr)
          obtain ⟨y, hy, hm'⟩ := collect_mem h (hm _ (ih hx hl))
          exact hm' _ (ih hy hs)
      · cases h
    | identifier hw hs =>
      simp only [restsIn, List.cons_append, H.identifier _ hw, if_true] at h
      exact ih h hs
    | integer hw hs =>
      simp only [restsIn, List.cons_append, H.integer _ hw, if_true] at h
      exact ih h hs
    | decimal hw hs =>
      simp only [restsIn, List.cons_append, H.decimal _ hw, if_true] at h
      exact ih h hs
    | string hw hs =>
      simp only [restsIn, List.cons_append, H.string _ hw, if_true] at h
      exact ih h hs

/-- The search finds no derivation. -/
def excludes (C : Search) (k : Nat) (N : NonTerminal) (ls : List Str) : Bool :=
  match restsIn C k [.n N] ls with
  | some rs => !rs.contains []
  | none => false

theorem excludes_sound {C : Search} {G : Grammar} (H : Covers C G) {k : Nat} {N : NonTerminal} {ls : List Str}
    (h : excludes C k N ls = true) : ¬ DerivesIn G N ls := by
  intro hd
  unfold excludes at h
  split at h
  · rename_i rs h'
    have h1 : DerivesAllIn G [.n N] ls := by
      have := DerivesAllIn.nonTerminal hd .nil
      rwa [List.append_nil] at this
    have h2 := restsIn_complete H (r := []) (by rwa [List.append_nil]) h1
    simp [h2] at h
  · cases h

/-! ## Finding derivations -/

theorem collect_inv {α β : Type} {f : α → Option (List β)} {l : List α} {ys : List β} (h : collect f l = some ys) {b : β}
    (hb : b ∈ ys) : ∃ a ∈ l, ∃ x, f a = some x ∧ b ∈ x := by
  induction l generalizing ys with
  | nil =>
    simp [collect] at h
    subst h
    simp at hb
  | cons c l ih =>
    unfold collect at h
    split at h
    · rename_i x y h1 h2
      simp at h
      subst h
      rcases List.mem_append.1 hb with hb | hb
      · exact ⟨c, by simp, x, h1, hb⟩
      · obtain ⟨a, ha, z, hz, hm⟩ := ih h2 hb
        exact ⟨a, by simp [ha], z, hz, hm⟩
    · cases h

/-- What the search finds is derived in the grammar. -/
structure Finds (C : Search) (G : Grammar) : Prop where
  productions : ∀ N, ∀ rhs ∈ C.productions N, rhs ∈ G.productions N
  identifier : ∀ w, C.identifier w = true → G.identifier w
  integer : ∀ w, C.integer w = true → G.integer w
  decimal : ∀ w, C.decimal w = true → Decimal w
  string : ∀ w, C.string w = true → Spec.WebIDL.String w

theorem restsIn_sound {C : Search} {G : Grammar} (H : Finds C G) {k : Nat} {ss : Alt} {ls r : List Str} {rs : List (List Str)}
    (h : restsIn C k ss ls = some rs) (hr : r ∈ rs) : ∃ l, ls = l ++ r ∧ DerivesAllIn G ss l := by
  induction k generalizing ss ls r rs with
  | zero => simp [restsIn] at h
  | succ k ih =>
    have none : ∀ {p : Prop}, some [] = some rs → p := fun h => by
      simp at h
      subst h
      simp at hr
    match ss, ls with
    | [], ls =>
      simp [restsIn] at h
      subst h
      simp at hr
      exact ⟨[], by simp [hr], .nil⟩
    | .n N :: ss, ls =>
      simp only [restsIn] at h
      split at h
      · rename_i rs' h'
        obtain ⟨r', h1, x, h2, h3⟩ := collect_inv h hr
        obtain ⟨rhs, h4, y, h5, h6⟩ := collect_inv h' h1
        obtain ⟨l1, rfl, h7⟩ := ih h5 h6
        obtain ⟨l2, rfl, h8⟩ := ih h2 h3
        exact ⟨l1 ++ l2, by simp, .nonTerminal (.mk (H.productions N rhs h4) h7) h8⟩
      · cases h
    | .t w :: ss, [] => exact none h
    | .identifier :: ss, [] => exact none h
    | .integer :: ss, [] => exact none h
    | .decimal :: ss, [] => exact none h
    | .string :: ss, [] => exact none h
    | .t w :: ss, v :: ls =>
      simp only [restsIn] at h
      split at h
      · rename_i hv
        obtain ⟨l, rfl, hl⟩ := ih h hr
        exact ⟨v :: l, rfl, hv ▸ .terminal hl⟩
      · exact none h
    | .identifier :: ss, v :: ls =>
      simp only [restsIn] at h
      split at h
      · rename_i hv
        obtain ⟨l, rfl, hl⟩ := ih h hr
        exact ⟨v :: l, rfl, .identifier (H.identifier v hv) hl⟩
      · exact none h
    | .integer :: ss, v :: ls =>
      simp only [restsIn] at h
      split at h
      · rename_i hv
        obtain ⟨l, rfl, hl⟩ := ih h hr
        exact ⟨v :: l, rfl, .integer (H.integer v hv) hl⟩
      · exact none h
    | .decimal :: ss, v :: ls =>
      simp only [restsIn] at h
      split at h
      · rename_i hv
        obtain ⟨l, rfl, hl⟩ := ih h hr
        exact ⟨v :: l, rfl, .decimal (H.decimal v hv) hl⟩
      · exact none h
    | .string :: ss, v :: ls =>
      simp only [restsIn] at h
      split at h
      · rename_i hv
        obtain ⟨l, rfl, hl⟩ := ih h hr
        exact ⟨v :: l, rfl, .string (H.string v hv) hl⟩
      · exact none h

/-- The search finds a derivation. -/
def finds (C : Search) (k : Nat) (N : NonTerminal) (ls : List Str) : Bool :=
  match restsIn C k [.n N] ls with
  | some rs => rs.contains []
  | none => false

theorem finds_sound {C : Search} {G : Grammar} (H : Finds C G) {k : Nat} {N : NonTerminal} {ls : List Str}
    (h : finds C k N ls = true) : DerivesIn G N ls := by
  unfold finds at h
  split at h
  · rename_i rs h'
    obtain ⟨l, h1, h2⟩ := restsIn_sound H h' (r := []) (by simpa using h)
    simp at h1
    subst h1
    cases h2 with
    | nonTerminal hN hs =>
      cases hs
      rwa [List.append_nil]
  · cases h

/-! ## Tokens -/

theorem terminal_mem {w : Str} (h : w ∈ terminals) : Terminal w := by
  obtain ⟨N, -, h⟩ := List.mem_flatMap.1 h
  obtain ⟨rhs, h1, h2⟩ := List.mem_flatMap.1 h
  obtain ⟨s, h3, h4⟩ := List.mem_filterMap.1 h2
  cases s <;> simp at h4
  subst h4
  exact ⟨N, rhs, h1, h3⟩

/-- How words, numbers and strings begin. -/
def firstWord (w : Str) : Bool := match w with
  | c :: _ => c == '_' || c.isAlpha
  | [] => false
def firstNumber (w : Str) : Bool := match w with
  | c :: _ => numberStart c
  | [] => false
def firstString (w : Str) : Bool := match w with
  | c :: _ => c == '"'
  | [] => false

theorem firstWord_of {w : Str} (h : Regex.identifier.Matches w) : firstWord w = true := by
  obtain ⟨i, hi, h⟩ := identifier_name.1 h
  obtain ⟨c, v, rfl, hc, -⟩ := word_iff.1 hi
  rcases h with h | h <;> simp at h <;> subst h
  · simp [firstWord, hc]
  · simp [firstWord]

theorem firstNumber_of {w : Str} (h : Numeral w) : firstNumber w = true := by
  obtain ⟨c, v, rfl, hc⟩ := Number.first h
  unfold firstNumber numberStart
  rcases hc with hc | rfl | rfl
  · unfold IsDig at hc
    simp [hc]
  · rfl
  · rfl

theorem numeral_of {w : Str} (h : Integral w) : Numeral w := by
  obtain ⟨i, hi⟩ := integral_lit h
  cases i with
  | dec v =>
    obtain ⟨h, he⟩ := hi
    simp at he
    exact .inl (he ▸ h)
  | hex v =>
    obtain ⟨h, he⟩ := hi
    simp at he
    exact .inr (.inl (he ▸ h))
  | oct v =>
    obtain ⟨h, he⟩ := hi
    simp at he
    exact .inr (.inr (.inl (he ▸ h)))

/-- The search with the additional alternatives `xs`. -/
def search (xs : List (NonTerminal × Alt)) (zx : Bool) : Search where
  productions := withExtra xs
  identifier w := firstWord w && !terminals.contains w
  integer w := firstNumber w && (zx || w != c!"0x")
  decimal w := firstNumber w && (zx || w != c!"0x")
  string := firstString

theorem firstString_of {w : Str} (h : Spec.WebIDL.String w) : firstString w = true := by
  obtain ⟨v, -, h⟩ := string_item.1 h
  simp at h
  subst h
  rfl

theorem identifier_found {w : Str} (h : Identifier w) : (firstWord w && !terminals.contains w) = true := by
  simp only [firstWord_of h.1, Bool.true_and, Bool.not_eq_true', List.contains_eq_mem, decide_eq_false_iff_not]
  exact fun hm => h.2 (terminal_mem hm)

theorem covers_extra (xs : List (NonTerminal × Alt)) : Covers (search xs true) ⟨withExtra xs, Identifier, Integral⟩ where
  productions _ _ h := h
  identifier _ h := identifier_found h
  integer w h := by simp [search, firstNumber_of (numeral_of h)]
  decimal w h := by simp [search, firstNumber_of (.inr (.inr (.inr h)))]
  string w h := firstString_of h

theorem covers_zx (xs : List (NonTerminal × Alt)) : Covers (search xs false) ⟨withExtra xs, Identifier, Integer⟩ where
  productions _ _ h := h
  identifier _ h := identifier_found h
  integer w h := by
    have : w ≠ c!"0x" := by
      rintro rfl
      exact not_token_0x (.inr (.inr (.inl h)))
    simp [search, firstNumber_of (numeral_of (.inl h)), this]
  decimal w h := by
    have : w ≠ c!"0x" := by
      rintro rfl
      exact not_token_0x (.inr (.inr (.inr (.inl h))))
    simp [search, firstNumber_of (.inr (.inr (.inr h))), this]
  string w h := firstString_of h

/-- The search in the relaxed grammar. -/
def searchRelaxed : Search where
  productions := withExtra extra
  identifier w := whole .ident w && !terminals.contains w
  integer w := whole .dec w || whole .oct w || whole .hex w
  decimal := whole .float
  string := whole .string

theorem finds_relaxed : Finds searchRelaxed relaxed where
  productions _ _ h := h
  identifier w h := by
    simp only [searchRelaxed, Bool.and_eq_true, Bool.not_eq_true', List.contains_eq_mem, decide_eq_false_iff_not] at h
    obtain ⟨i, h1, h2⟩ := whole_sound h.1
    exact ⟨identifier_name.2 ⟨i, h2, by rcases h1 with rfl | rfl <;> simp⟩, fun ht => h.2 (mem_terminals ht)⟩
  integer w h := by
    simp only [searchRelaxed, Bool.or_eq_true] at h
    rcases h with (h | h) | h
    · obtain ⟨i, rfl, h2⟩ := whole_sound h
      obtain ⟨a, b, rfl, ha, hb⟩ := Regex.matches_seq.1 h2
      exact .inl (.seq ha (.left hb))
    · obtain ⟨i, rfl, h2⟩ := whole_sound h
      obtain ⟨a, b, rfl, ha, hb⟩ := Regex.matches_seq.1 h2
      exact .inl (.seq ha (.right (.right hb)))
    · obtain ⟨i, rfl, h2⟩ := whole_sound h
      exact matches_hex h2
  decimal w h := by
    obtain ⟨i, rfl, h2⟩ := whole_sound h
    exact h2
  string w h := by
    obtain ⟨i, h1, h2⟩ := whole_sound h
    exact string_item.2 ⟨i, h2, by rw [h1]⟩

end Verif.WebIDL
