import Verif.Spec.Nested
import Verif.Proof.Definitions
import Verif.Proof.BigStep
import Verif.Proof.Text

/-!
# The number of terminals that are tried
-/

namespace Verif
open Nom Spec

/-! ## A family of texts with exponential cost -/

def nestedNode : Nat → Argument
  | 0 => .variadic none (.single (.nonAny (.identifier c!"T" false))) c!"x"
  | n + 1 => .variadic (some [.argList c!"A" [nestedNode n]]) (.single (.nonAny (.identifier c!"T" false))) c!"x"

theorem nestedArg_head (n : Nat) (s : Str) : NoTrivia (nestedArg n ++ s) := by
  rw [noTrivia_iff]
  apply triviaStart
  cases n <;> simp [nestedArg]

theorem leaf_run {α : Type} {l : Leaf α} {s : Str} {x : Res Char α} (h : charLeaf α l s = x) :
    Runs charLeaf (.leaf l) s 1 x := h ▸ Runs.leaf

theorem Runs.of_parse {α : Type} {g : G α} {b : Bool} {s : Str} {x : Res Char α} (hg : IsType g b)
    (h : g.parse s = x) : ∃ c, Runs charLeaf g s c x := by
  obtain ⟨c, hc⟩ := Runs.parse charLeaf_fine hg.guarded s
  exact ⟨c, h ▸ hc⟩

theorem punct_run (p : Punct) (s : Str) (hs : NoTrivia s) (hp : NoTrivia (p.text ++ s)) :
    Runs charLeaf (G.punct p) (p.text ++ s) 1 (.ok s ()) := by
  have : charLeaf _ (.punct p) (p.text ++ s) = .ok s () := by
    show punctP p _ = _
    unfold punctP
    simp only [Nom.map, Nom.seq, ws_eq, strip_of_noTrivia hp, tag_append, strip_of_noTrivia hs, Nom.ret]
  exact this ▸ Runs.leaf

theorem ident_run {i e : Str} (hi : Regex.word.Matches i) (he : NameEnd e) (hs : NoTrivia e) :
    Runs charLeaf G.ident (i ++ e) 1 (.ok e i) := by
  refine leaf_run (charLeaf_ok_iff.2 ⟨i, e, ?_, ⟨.inl rfl, hi⟩, he, (strip_of_noTrivia hs).symm⟩)
  obtain ⟨c, v, rfl, h, -⟩ := word_iff.1 hi
  apply triviaStart
  intro d hd e'
  simp at e'
  subst e'
  exact alpha_first (.inl h) hd

theorem word_A : Regex.word.Matches c!"A" := word_iff.2 ⟨'A', [], rfl, rfl, by simp⟩
theorem word_T : Regex.word.Matches c!"T" := word_iff.2 ⟨'T', [], rfl, rfl, by simp⟩
theorem word_x : Regex.word.Matches c!"x" := word_iff.2 ⟨'x', [], rfl, rfl, by simp⟩

theorem nameEnd_cons {c : Char} {e : Str} (h : isIdentChar c = false) : NameEnd (c :: e) := by
  rintro d e' h'
  cases h'
  exact h

theorem attrs_run (n c : Nat) (t : Str) (ht : NoTrivia t)
    (h : Runs charLeaf G.argument (nestedArg n ++ c!")]" ++ t) c (.ok (c!")]" ++ t) (nestedNode n))) :
    ∃ d, c ≤ d ∧ Runs charLeaf G.attrs (c!"[A(" ++ nestedArg n ++ c!")]" ++ t) d
      (.ok t (some [.argList c!"A" [nestedNode n]])) := by
  have hid : Runs charLeaf G.ident (c!"A" ++ (c!"(" ++ (nestedArg n ++ c!")]" ++ t))) 1 (.ok _ c!"A") :=
    ident_run word_A (nameEnd_cons rfl) (noTrivia_iff.2 rfl)
  have ho : Runs charLeaf (G.punct .openBracket) (c!"[" ++ (c!"A(" ++ (nestedArg n ++ c!")]" ++ t))) 1 (.ok _ ()) :=
    punct_run .openBracket _ (noTrivia_iff.2 rfl) (noTrivia_iff.2 rfl)
  have hp : Runs charLeaf (G.punct .openParen) (c!"(" ++ (nestedArg n ++ c!")]" ++ t)) 1 (.ok _ ()) :=
    punct_run .openParen _ (by rw [List.append_assoc]; exact nestedArg_head _ _) (noTrivia_iff.2 rfl)
  have hc : Runs charLeaf (G.punct .closeParen) (c!")" ++ (c!"]" ++ t)) 1 (.ok _ ()) :=
    punct_run .closeParen _ (noTrivia_iff.2 rfl) (noTrivia_iff.2 rfl)
  have hb : Runs charLeaf (G.punct .closeBracket) (c!"]" ++ t) 1 (.ok _ ()) :=
    punct_run .closeBracket _ ht (noTrivia_iff.2 rfl)
  have hn : Runs charLeaf (G.punct .comma) (c!")]" ++ t) 1 (.err (.error (c!")]" ++ t) .tag)) := leaf_run (by rfl)
  have hm : Runs charLeaf (G.punct .comma) (c!"]" ++ t) 1 (.err (.error (c!"]" ++ t) .tag)) := leaf_run (by rfl)
  have hne : c!")]" ++ t ≠ nestedArg n ++ c!")]" ++ t := by
    cases n <;> simp [nestedArg]
  have hargs : Runs charLeaf G.argumentList _ _ _ :=
    Runs.sepMore (.call (N := .argument) h) hne (.noSep (g := .call .argument) hn)
  have hea : Runs charLeaf G.extAttrArgList _ _ _ :=
    .bindOk hid (.bindOk (.bindOk hp (.bindOk hargs (.bindOk hc .ret))) .ret)
  have hea : Runs charLeaf G.extAttr _ _ _ := .orElseOk hea
  have hl : Runs charLeaf (G.commaList G.extAttr) _ _ _ := .sepMore hea (by
    intro e
    have := congrArg List.length e
    simp at this
    omega) (.noSep (g := G.extAttr) hm)
  have hr : Runs charLeaf G.attrs _ _ _ := .optSome (.bindOk ho (.bindOk hl (.bindOk hb .ret)))
  refine ⟨_, ?_, by simpa using hr⟩
  omega

theorem type_run (u : Str) : ∃ c, Runs charLeaf G.type (c!"T" ++ (c!"..." ++ u)) c
    (.ok (c!"..." ++ u) (.single (.nonAny (.identifier c!"T" false)))) := by
  refine Runs.of_parse .type ?_
  show OkAt charLeaf (ntLim charLeaf) G.type (c!"T" ++ (c!"..." ++ u)) (c!"..." ++ u)
    (.single (.nonAny (.identifier c!"T" false)))
  refine OkAt.typeWord (m := c!"..." ++ u) ?_ ?_ ?_
  · simp only [List.forall_mem_cons]
    repeat' first | exact (fun _ h => nomatch h) | apply And.intro | exact ⟨_, _, rfl⟩
  · have := Runs.inv (ident_run (e := c!"..." ++ u) word_T (nameEnd_cons rfl) (noTrivia_iff.2 rfl))
    exact this.2.symm
  · rfl

theorem argument_run (c : Nat) (u : Str) (s : Str) (as : Attrs)
    (h : Runs charLeaf G.attrs s c (.ok (c!"T" ++ (c!"..." ++ (c!"x" ++ (c!")" ++ u)))) as)) :
    ∃ d, 2 * c ≤ d ∧ Runs charLeaf G.argument s d
      (.ok (c!")" ++ u) (.variadic as (.single (.nonAny (.identifier c!"T" false))) c!"x")) := by
  obtain ⟨k, hk⟩ := type_run (c!"x" ++ (c!")" ++ u))
  have hi : Runs charLeaf G.ident (c!"..." ++ (c!"x" ++ (c!")" ++ u))) 1 (.err (.error _ _)) := leaf_run (by rfl)
  have ho : Runs charLeaf (G.optKw .optional) (c!"T" ++ (c!"..." ++ (c!"x" ++ (c!")" ++ u)))) _ _ :=
    .bindOk (.optNone (leaf_run (l := .kw .optional) (x := .err (.error _ _)) (by rfl))) .ret
  have ha : Runs charLeaf G.attrs (c!"T" ++ (c!"..." ++ (c!"x" ++ (c!")" ++ u)))) _ _ :=
    .optNone (.bindErr (leaf_run (l := .punct .openBracket) (x := .err (.error _ _)) (by rfl)))
  have ht : Runs charLeaf G.attributedType _ _ _ := .bindOk ha (.bindOk hk .ret)
  have h1 : Runs charLeaf G.singleArgument s _ _ := .bindOk h (.bindOk ho (.bindOk ht (.bindErr hi)))
  have he : Runs charLeaf (G.punct .ellipsis) (c!"..." ++ (c!"x" ++ (c!")" ++ u))) 1 (.ok _ ()) :=
    punct_run .ellipsis _ (noTrivia_iff.2 rfl) (noTrivia_iff.2 rfl)
  have hx : Runs charLeaf G.ident (c!"x" ++ (c!")" ++ u)) 1 (.ok _ _) :=
    ident_run word_x (nameEnd_cons rfl) (noTrivia_iff.2 rfl)
  have h2 : Runs charLeaf G.variadicArgument s _ _ := .bindOk h (.bindOk hk (.bindOk he (.bindOk hx .ret)))
  have h3 : Runs charLeaf G.argument s _ _ := .orElseNext h1 (.orElseOk h2)
  exact ⟨_, by omega, h3⟩

theorem nested_run (n : Nat) : ∀ u : Str, ∃ d, 2 ^ n ≤ d ∧ Runs charLeaf G.argument (nestedArg n ++ (c!")" ++ u)) d
    (.ok (c!")" ++ u) (nestedNode n)) := by
  induction n with
  | zero =>
    intro u
    have ha : Runs charLeaf G.attrs (c!"T" ++ (c!"..." ++ (c!"x" ++ (c!")" ++ u)))) 1 (.ok _ none) :=
      .optNone (.bindErr (leaf_run (l := .punct .openBracket) (x := .err (.error _ _)) (by rfl)))
    obtain ⟨d, h1, h2⟩ := argument_run 1 u _ _ ha
    exact ⟨d, by omega, h2⟩
  | succ n ih =>
    intro u
    obtain ⟨c, h1, h2⟩ := ih (c!"]" ++ (c!"T" ++ (c!"..." ++ (c!"x" ++ (c!")" ++ u)))))
    obtain ⟨d, h3, h4⟩ := attrs_run n c (c!"T" ++ (c!"..." ++ (c!"x" ++ (c!")" ++ u)))) (noTrivia_iff.2 rfl)
      (by simpa using h2)
    obtain ⟨e, h5, h6⟩ := argument_run d u _ _ h4
    refine ⟨e, by omega, ?_⟩
    simpa [nestedArg, nestedNode] using h6

theorem nestedDoc_length (n : Nat) : (nestedDoc n).length = 10 * n + 22 := by
  have : (nestedArg n).length = 10 * n + 5 := by
    induction n with
    | zero => rfl
    | succ n ih => simp [nestedArg, ih]; omega
  simp [nestedDoc, this]

theorem nestedDoc_attrs (n : Nat) : ∃ d, 2 ^ n ≤ d ∧ Runs charLeaf G.attrs (nestedDoc n) d
    (.ok c!"typedef T x;" (some [.argList c!"A" [nestedNode n]])) := by
  obtain ⟨c, h1, h2⟩ := nested_run n c!"]typedef T x;"
  obtain ⟨d, h3, h4⟩ := attrs_run n c c!"typedef T x;" (noTrivia_iff.2 rfl) (by simpa using h2)
  exact ⟨d, by omega, by simpa [nestedDoc] using h4⟩

theorem nestedDoc_definition (n : Nat) : G.definition.parse (nestedDoc n) = .ok []
    (.typedef (some [.argList c!"A" [nestedNode n]]) (.mk none (.single (.nonAny (.identifier c!"T" false)))) c!"x") := by
  obtain ⟨d, -, h⟩ := nestedDoc_attrs n
  obtain ⟨c, hc⟩ := Runs.parse charLeaf_fine (g := G.attrs) inferInstance (nestedDoc n)
  have ha : OkAt charLeaf (ntLim charLeaf) G.attrs (nestedDoc n) c!"typedef T x;"
    (some [.argList c!"A" [nestedNode n]]) := (Runs.det h _ _ hc).2
  show OkAt charLeaf (ntLim charLeaf) G.definition (nestedDoc n) [] _
  refine .next (.right ha ⟨_, _, rfl⟩) <| .next (.right ha ⟨_, _, rfl⟩) <| .next (.right ha ⟨_, _, rfl⟩) <|
    .next (.right ha ⟨_, _, rfl⟩) <| .next (.right ha ⟨_, _, rfl⟩) <| .next (.right ha ⟨_, _, rfl⟩) <|
    .next (.right ha ⟨_, _, rfl⟩) <| .next (.right ha ⟨_, _, rfl⟩) <| .next (.right ha ⟨_, _, rfl⟩) <|
    .next (.right ha ⟨_, _, rfl⟩) <| .next (.right ha ⟨_, _, rfl⟩) <| .here (.bind ha ?_)
  rfl

end Verif
