import Verif.Proof.Rename
import Verif.Properties.Results

/-!
# C29, C38: names
-/

namespace Verif.Properties
open Nom Spec

/-! ## C38: names are opaque -/

/-- Renaming identifiers in a text does nothing to the result but rename the identifiers in it. -/
theorem C38_rename (g : Str → Str) (hg : Renaming g) (s s' : Str) (ls ls' : List Str) (h : Lexes s ls)
    (h' : Lexes s' ls') (hl : ls ≠ []) (hr : Pointwise (Renamed g) ls ls') (ds : List Definition)
    (hd : weedleParse s = .ok ds) : weedleParse s' = .ok (rename g ds) := by
  rw [document_iff, document_lexes] at hd ⊢
  rcases hd with ⟨rfl, rfl⟩ | ⟨hd, l, h1, h2⟩
  · exact absurd (lexes_unique h lexes_nil) hl
  · obtain rfl := lexes_unique h h1
    refine .inr ⟨by simpa [rename] using hd, ls', h', mv_definitions hg ds _ _ hr h2⟩

/-- Two names may become one. -/
example : weedleParse c!"a includes a;" = .ok (rename (fun i => if i = c!"b" then c!"a" else i) [.includesStatement none c!"a" c!"b"]) :=
  C38_rename (fun i => if i = c!"b" then c!"a" else i)
    ⟨fun i hi => by dsimp only; split <;> first | exact hi | exact isFree_sound (by decide +kernel), by decide +kernel⟩
    c!"a includes b;" _ [c!"a", c!"includes", c!"b", c!";"] [c!"a", c!"includes", c!"a", c!";"]
    (lexes_sound (by decide +kernel)) (lexes_sound (by decide +kernel)) (by simp) (allRenamed_sound (by decide +kernel)) _ rfl

theorem pointwise_back {g k : Str → Str} (hg : Renaming g) (hk : ∀ i, Free i → k (g i) = i) {ls ls' : List Str}
    (h : Pointwise (Renamed g) ls ls') : Pointwise (Renamed k) ls' ls := by
  induction h with
  | nil => exact .nil
  | cons h _ ih =>
    refine .cons ?_ ih
    cases h with
    | name hi h1 h2 => exact .name (hg.1 _ hi) h2 (by rw [hk _ hi]; exact h1)
    | same h => exact .same h

/-- A renaming that can be undone does nothing to whether a text is accepted. -/
theorem C38_reversible (g k : Str → Str) (hg : Renaming g) (hk : Renaming k) (hgk : ∀ i, Free i → k (g i) = i)
    (s s' : Str) (ls ls' : List Str) (h : Lexes s ls) (h' : Lexes s' ls') (hl : ls ≠ [])
    (hr : Pointwise (Renamed g) ls ls') :
    (∃ ds, weedleParse s = .ok ds ∧ weedleParse s' = .ok (rename g ds)) ∨
    (weedleParse s = .panic ∧ weedleParse s' = .panic) := by
  rcases C02_never_err s with ⟨ds, h1⟩ | h1
  · exact .inl ⟨ds, h1, C38_rename g hg s s' ls ls' h h' hl hr ds h1⟩
  · rcases C02_never_err s' with ⟨ds, h2⟩ | h2
    · have hl' : ls' ≠ [] := by rintro rfl; cases hr; exact hl rfl
      rw [C38_rename k hk s' s ls' ls h' h hl' (pointwise_back hg hgk hr) ds h2] at h1
      cases h1
    · exact .inr ⟨h1, h2⟩

/-- `A` becomes `Thing`, and `x` becomes `y`. -/
def newName (i : Str) : Str := if i = c!"A" then c!"Thing" else if i = c!"x" then c!"y" else i

theorem newName_renaming : Renaming newName := by
  constructor
  · intro i hi
    unfold newName
    split
    · exact isFree_sound (by decide +kernel)
    · split
      · exact isFree_sound (by decide +kernel)
      · exact hi
  · unfold newName
    decide +kernel

example : weedleParse c!"/**/interface _Thing{attribute sequence<Thing> y;};" =
    .ok (rename newName [.interface none c!"A" none [.attribute ⟨none, none, false,
      .mk none (.single (.nonAny (.sequence (.single (.nonAny (.identifier c!"A" false))) false))), c!"x"⟩]]) :=
  C38_rename newName newName_renaming c!"interface A { attribute sequence< A > _x ; };" _
    [c!"interface", c!"A", c!"{", c!"attribute", c!"sequence", c!"<", c!"A", c!">", c!"_x", c!";", c!"}", c!";"]
    [c!"interface", c!"_Thing", c!"{", c!"attribute", c!"sequence", c!"<", c!"Thing", c!">", c!"y", c!";", c!"}", c!";"]
    (lexes_sound (by decide +kernel)) (lexes_sound (by decide +kernel)) (by simp) (allRenamed_sound (by decide +kernel)) _ rfl

/-- `a` and `b` change places. -/
def swap (i : Str) : Str := if i = c!"a" then c!"b" else if i = c!"b" then c!"a" else i

theorem swap_renaming : Renaming swap := by
  constructor
  · intro i hi
    unfold swap
    split
    · exact isFree_sound (by decide +kernel)
    · split
      · exact isFree_sound (by decide +kernel)
      · exact hi
  · unfold swap
    decide +kernel

example : (∃ ds, weedleParse c!"a includes b;" = .ok ds ∧ weedleParse c!"b includes a;" = .ok (rename swap ds)) ∨
    (weedleParse c!"a includes b;" = .panic ∧ weedleParse c!"b includes a;" = .panic) :=
  C38_reversible swap swap swap_renaming swap_renaming (fun i _ => by unfold swap; grind) _ _
    [c!"a", c!"includes", c!"b", c!";"] [c!"b", c!"includes", c!"a", c!";"]
    (lexes_sound (by decide +kernel)) (lexes_sound (by decide +kernel)) (by simp) (allRenamed_sound (by decide +kernel))

/-! ## C29: underscores -/

/-- The same item, or a word that is not a keyword with and without an underscore. -/
def SameUpToUnderscore (w w' : Str) : Prop := w = w' ∨ ∃ i, Free i ∧ w ∈ [i, '_' :: i] ∧ w' ∈ [i, '_' :: i]

theorem same_renamed {ls ls' : List Str} (h : Pointwise SameUpToUnderscore ls ls') : Pointwise (Renamed id) ls ls' := by
  induction h with
  | nil => exact .nil
  | cons h _ ih =>
    refine .cons ?_ ih
    rcases h with rfl | ⟨i, hi, h1, h2⟩
    · rename_i w _ _ _
      by_cases hw : ∃ i, Free i ∧ w ∈ [i, '_' :: i]
      · obtain ⟨i, hi, h1⟩ := hw
        exact .name hi h1 h1
      · exact .same fun i hi h1 => hw ⟨i, hi, h1⟩
    · exact .name hi h1 h2

/-- Adding and removing underscores in front of words that are not keywords makes no difference. -/
theorem C29_escape (s s' : Str) (ls ls' : List Str) (h : Lexes s ls) (h' : Lexes s' ls') (hl : ls ≠ [])
    (hr : Pointwise SameUpToUnderscore ls ls') : weedleParse s = weedleParse s' := by
  have hi : Renaming id := ⟨fun _ h => h, fun _ _ => rfl⟩
  have key : ∀ {s ds}, weedleParse s = .ok ds → rename id ds = ds := fun h =>
    fix_wf (fun _ _ => rfl) ((C21_wellformed _).2 ⟨_, h⟩)
  rcases C38_reversible id id hi hi (fun _ _ => rfl) s s' ls ls' h h' hl (same_renamed hr) with ⟨ds, h1, h2⟩ | ⟨h1, h2⟩
  · rw [h1, h2, key h1]
  · rw [h1, h2]

/-- The identifiers in a result are words `[A-Za-z][0-9A-Za-z_-]*`, without an underscore in front: a change
to other strings only changes nothing. -/
theorem C29_names (s : Str) (ds : List Definition) (h : weedleParse s = .ok ds) (g : Str → Str)
    (hg : ∀ i, Regex.word.Matches i → g i = i) : rename g ds = ds :=
  fix_wf hg ((C21_wellformed ds).2 ⟨s, h⟩)

/-- All names of an accepted document can be reserved words. -/
theorem C29_reserved (s : Str) (ds : List Definition) (h : weedleParse s = .ok ds) (g : Str → Str)
    (hg : ∀ i, g i ∈ keywords) : weedleParse (print (rename g ds)) = .ok (rename g ds) := by
  refine C21_round_trip _ (map_wf (fun _ h => h) (fun i _ => ?_) ((C21_wellformed ds).2 ⟨s, h⟩))
  have : ∀ k ∈ keywords, ∃ c v, k = c :: v ∧ c.isAlpha = true ∧ ∀ x ∈ v, isIdentChar x = true := by
    have : (keywords.all fun k => match k with | c :: v => c.isAlpha && v.all isIdentChar | [] => false) = true := by
      decide +kernel
    intro k hk
    have := List.all_eq_true.1 this k hk
    cases k with
    | nil => simp at this
    | cons c v => exact ⟨c, v, rfl, by simpa using this⟩
  exact word_iff.2 (this _ (hg i))

example : weedleParse c!"[_B]interface _A : B { attribute _C interface; };" =
    weedleParse c!"[B] interface A: _B {attribute C interface ;};" := by
  refine C29_escape _ _ [c!"[", c!"_B", c!"]", c!"interface", c!"_A", c!":", c!"B", c!"{", c!"attribute", c!"_C",
      c!"interface", c!";", c!"}", c!";"]
    [c!"[", c!"B", c!"]", c!"interface", c!"A", c!":", c!"_B", c!"{", c!"attribute", c!"C", c!"interface", c!";", c!"}", c!";"]
    (lexes_sound (by decide +kernel)) (lexes_sound (by decide +kernel)) (by simp) ?_
  have hs : ∀ w, SameUpToUnderscore w w := fun w => .inl rfl
  have h1 : ∀ i, isFree i = true → SameUpToUnderscore ('_' :: i) i := fun i hi =>
    .inr ⟨i, isFree_sound hi, by simp, by simp⟩
  have h2 : ∀ i, isFree i = true → SameUpToUnderscore i ('_' :: i) := fun i hi =>
    .inr ⟨i, isFree_sound hi, by simp, by simp⟩
  repeat' first
    | exact .nil
    | refine .cons (hs _) ?_
    | refine .cons (h1 _ (by decide +kernel)) ?_
    | refine .cons (h2 _ (by decide +kernel)) ?_

/-- A document with the names `long` and `interface`. -/
example : weedleParse (print (rename (fun i => if i = c!"A" then c!"long" else c!"interface") [.includesStatement none c!"A" c!"B"])) =
    .ok [.includesStatement none c!"long" c!"interface"] :=
  C29_reserved c!"A includes B;" _ rfl _ fun i => by split <;> decide

example : rename (fun i => i.dropWhile (· == '_')) [.includesStatement none c!"A" c!"B"] = [.includesStatement none c!"A" c!"B"] :=
  C29_names c!"_A includes _B;" _ rfl _ fun i hi => by
    obtain ⟨c, v, rfl, hc, -⟩ := word_iff.1 hi
    have : (c == '_') = false := by
      simp only [beq_eq_false_iff_ne]
      rintro rfl
      simp [Char.isAlpha, Char.isUpper, Char.isLower] at hc
    simp [List.dropWhile, this]

end Verif.Properties
