import Verif.Proof.AutomatonItem
import Verif.Spec.Swap

/-!
# Texts where two neighbouring items have changed places
-/

namespace Verif.Auto
open Nom Spec

variable {y z : Str}

theorem step_flat {p : St} {x : Str} {b : List Str} (hf : Flat x) (h : Acc y p (x :: b)) :
    ∃ hd p', (hd, p') ∈ next p ∧ hd.has y x ∧ Acc y p' b := by
  generalize hg : x :: b = M at h
  cases h with
  | done => simp at hg
  | group hm hc hs =>
    simp only [List.cons_append, List.cons.injEq] at hg
    exact (opening_not_flat _ (hg.1 ▸ hf)).elim
  | item hm hw hs =>
    simp only [List.cons.injEq] at hg
    obtain ⟨rfl, rfl⟩ := hg
    exact ⟨_, _, hm, hw, hs⟩

/-- The states at the difference: the first automaton reads `x` and `x'`, the second `x'` and `x`. -/
theorem swap_at {a b : List Str} {x x' : Str} (hf : Flat x) (hf' : Flat x') (h1 : Acc y .doc (a ++ [x, x'] ++ b))
    (h2 : Acc z .doc (a ++ [x', x] ++ b)) :
    ∃ p q p1 p2 q1 q2 d1 d2 e1 e2 b' t, inA p q = Bool.true ∧ b = b' ++ t ∧ (d1, p1) ∈ next p ∧ (d2, p2) ∈ next p1 ∧ (e1, q1) ∈ next q ∧
      (e2, q2) ∈ next q1 ∧ d1.has y x ∧ d2.has y x' ∧ e1.has z x' ∧ e2.has z x ∧ Acc y p2 b' ∧ Acc z q2 b' ∧ Hist p a ∧ Hist q a ∧
      Pair p q a := by
  obtain ⟨p, q, b', t, hA, rfl, ht, h3, h4, hp, hq, hr⟩ := sync (v := [x', x]) (pre := []) inD_apart inA_along (p := .doc) (q := .doc)
    (by decide) h1 rfl (by simpa using h2) (by simpa using ⟨hf, hf'⟩) (by simpa using ⟨hf', hf⟩) (.nil rfl) (.nil rfl)
    (by intro h; simp [attrSemi] at h)
  simp only [List.nil_append, List.cons_append] at hp hq hr h3 h4
  obtain ⟨d1, p1, m1, w1, h3⟩ := step_flat hf h3
  obtain ⟨d2, p2, m2, w2, h3⟩ := step_flat hf' h3
  obtain ⟨e1, q1, n1, v1, h4⟩ := step_flat hf' h4
  obtain ⟨e2, q2, n2, v2, h4⟩ := step_flat hf h4
  exact ⟨p, q, p1, p2, q1, q2, d1, d2, e1, e2, b', t, hA, rfl, m1, m2, n1, n2, w1, w2, v1, v2, h3, h4, hp, hq, hr⟩

/-! ## A mark -/

def swaps : Wd → Hd → St → St → St → St → Bool
  | .semi, d, p, q, _, _ => d.isName && attrSemi p q
  | .query, d, p, q, p', q' => opens .round p' q' && (decide (d = .w .long) && (after [[.w .long]] p q || after [[.w .unsigned]] p q) ||
      decide (d = .w .short) && after [[.w .unsigned]] p q || decide (d = .w .float) && after [[.w .unrestricted]] p q ||
      decide (d = .w .double) && after [[.w .unrestricted]] p q)
  | .comma, d, p, q, p', q' => forced [[.long]] p' q' && (decide (d = .w .long) && (after [[.w .long]] p q || after [[.w .unsigned]] p q))
  | _, _, _, _, _, _ => Bool.false

def swapOk (p q : St) : Bool :=
  (next q).all fun e => allMarks.all fun k => !compat e.1 (.w k) || (next p).all fun d => (next d.2).all fun d' =>
    !compat d'.1 (.w k) || (next e.2).all fun e' => !compat d.1 e'.1 || inD d'.2 e'.2 || swaps k d.1 p q d'.2 e'.2

theorem inA_swap : ∀ p q, inA p q = Bool.true → swapOk p q = Bool.true :=
  fun _ _ => forRows_spec (f := swapOk) (by decide +kernel)

theorem mark_of {k : Str} (hk : k ∈ signs) : ∃ w ∈ allMarks, k = Wd.text w := by
  have : ∀ k ∈ signs, k ∈ allMarks.map Wd.text := by decide
  obtain ⟨w, hw, rfl⟩ := List.mem_map.1 (this k hk)
  exact ⟨w, hw, rfl⟩

theorem isName_word {h : Hd} {x : Str} (hn : h.isName = Bool.true) (hw : h.has y x) : IsWord x := by
  cases h with
  | w k =>
    have hn : k.isName = Bool.true := hn
    have hw : x = k.text := hw
    subst hw
    cases k <;> first | exact ⟨_, _, rfl, by decide⟩ | exact absurd hn (by decide)
  | name ex => exact hw.1
  | str => cases hn
  | num => cases hn
  | grp => cases hn

theorem swapMark {a b : List Str} {x k : Str} (hf : Flat x) (hk : k ∈ signs) (h1 : Acc y .doc (a ++ [x, k] ++ b))
    (h2 : Acc z .doc (a ++ [k, x] ++ b)) : MaySwap a x k b := by
  obtain ⟨k, hm, rfl⟩ := mark_of hk
  have hkf : Flat k.text := has_flat (y := []) (h := .w k) rfl
  obtain ⟨p, q, p1, p2, q1, q2, d1, d2, e1, e2, b', t, hA, rfl, m1, m2, n1, n2, w1, w2, v1, v2, h3, h4, hp, hq, hr⟩ := swap_at hf hkf h1 h2
  have hl := List.all_eq_true.1 (List.all_eq_true.1 (inA_swap _ _ hA) _ n1) _ hm
  have hc := compat_of v1 (show (Hd.w k).has [] k.text from rfl)
  have hc' := compat_of w2 (show (Hd.w k).has [] k.text from rfl)
  have hx := compat_of w1 v2
  simp only [hc, Bool.not_true, Bool.false_or] at hl
  have hl := List.all_eq_true.1 (List.all_eq_true.1 hl _ m1) _ m2
  simp only [hc', Bool.not_true, Bool.false_or] at hl
  have hl := List.all_eq_true.1 hl _ n2
  simp only [hx, Bool.not_true, Bool.false_or, Bool.or_eq_true] at hl
  rcases hl with hl | hl
  · exact (apart_false inD_apart hl h3 h4).elim
  unfold swaps at hl
  split at hl
  · simp only [Bool.and_eq_true] at hl
    obtain ⟨a, c, rfl, hc⟩ := hr hl.2
    exact .attribute hc (isName_word hl.1 w1)
  · simp only [Bool.and_eq_true, Bool.or_eq_true, decide_eq_true_eq] at hl
    obtain ⟨ho, hj⟩ := hl
    obtain ⟨rest, rfl⟩ := opens_spec ho h3 h4
    rcases hj with ((⟨rfl, hj | hj⟩ | ⟨rfl, hj⟩) | ⟨rfl, hj⟩) | ⟨rfl, hj⟩
    all_goals
      obtain ⟨a, rfl⟩ := match_w (after_spec hj hp hq)
      obtain rfl := w1
      exact .nullable (by decide)
  · simp only [Bool.and_eq_true, Bool.or_eq_true, decide_eq_true_eq] at hl
    obtain ⟨ho, rfl, hj⟩ := hl
    have hb := forced_spec ho h3 h4
    match b', hb with
    | w :: b', ⟨⟨k, hk, e⟩, _⟩ =>
      simp only [List.mem_cons, List.not_mem_nil, or_false] at hk
      subst hk e
      rcases hj with hj | hj
      all_goals
        obtain ⟨a, rfl⟩ := match_w (after_spec hj hp hq)
        obtain rfl := w1
        exact .words (by decide)
  · simp at hl

/-! ## A literal -/

def swapLitOk (p q : St) : Bool :=
  (next p).all fun d => decide (d.1.lit = 0) || (next d.2).all fun d' => (next q).all fun e => !compat d'.1 e.1 ||
    (next e.2).all fun e' => !compat d.1 e'.1 || inD d'.2 e'.2

theorem inA_swapLit : ∀ p q, inA p q = Bool.true → swapLitOk p q = Bool.true :=
  fun _ _ => forRows_spec (f := swapLitOk) (by decide +kernel)

theorem lit_ne {x : Str} (hx : IsString x ∨ IsNumber x) {h : Hd} (hw : h.has y x) : h.lit ≠ 0 := by
  rcases hx with hx | hx
  · rw [string_hd hx hw]; decide
  · rw [number_hd hx hw]; decide

theorem swapLit {a b : List Str} {x x' : Str} (hx : IsString x ∨ IsNumber x) (hf : Flat x') (h1 : Acc y .doc (a ++ [x, x'] ++ b))
    (h2 : Acc z .doc (a ++ [x', x] ++ b)) : False := by
  obtain ⟨p, q, p1, p2, q1, q2, d1, d2, e1, e2, b', t, hA, rfl, m1, m2, n1, n2, w1, w2, v1, v2, h3, h4, hp, hq, hr⟩ :=
    swap_at (hx.elim string_flat number_flat) hf h1 h2
  have hl := List.all_eq_true.1 (inA_swapLit _ _ hA) _ m1
  simp only [lit_ne hx w1, decide_false, Bool.false_or] at hl
  have hl := List.all_eq_true.1 (List.all_eq_true.1 hl _ m2) _ n1
  simp only [compat_of w2 v1, Bool.not_true, Bool.false_or] at hl
  have hl := List.all_eq_true.1 hl _ n2
  simp only [compat_of w1 v2, Bool.not_true, Bool.false_or] at hl
  exact apart_false inD_apart hl h3 h4

/-! ## A keyword and a name -/

def swapKwOk (p q : St) : Bool :=
  (next p).all fun d => match d.1 with
    | .w k => !decide (k ∈ kws) || (next d.2).all fun d' => match d'.1 with
      | .name _ => (next q).all fun e => match e.1 with
        | .name _ => (next e.2).all fun e' => !decide (e'.1 = .w k) || inD d'.2 e'.2
        | _ => Bool.true
      | _ => Bool.true
    | _ => Bool.true

theorem inA_swapKw : ∀ p q, inA p q = Bool.true → swapKwOk p q = Bool.true :=
  fun _ _ => forRows_spec (f := swapKwOk) (by decide +kernel)

theorem swapKw {a b : List Str} {k : Wd} {x : Str} (hk : k ∈ kws) (hx : PlainName x) (h1 : Acc k.text .doc (a ++ [k.text, x] ++ b))
    (h2 : Acc k.text .doc (a ++ [x, k.text] ++ b)) : False := by
  obtain ⟨p, q, p1, p2, q1, q2, d1, d2, e1, e2, b', t, hA, rfl, m1, m2, n1, n2, w1, w2, v1, v2, h3, h4, hp, hq, hr⟩ :=
    swap_at (has_flat (y := []) (h := .w k) rfl) (word_flat hx.1) h1 h2
  have := kw_hd (kws_name k hk) w1
  subst this
  have := kw_hd (kws_name k hk) v2
  subst this
  obtain ⟨ex, rfl⟩ := plain_name hx w2
  obtain ⟨ex', rfl⟩ := plain_name hx v1
  have hl := List.all_eq_true.1 (inA_swapKw _ _ hA) _ m1
  simp only [hk, decide_true, Bool.not_true, Bool.false_or] at hl
  have hl := List.all_eq_true.1 (List.all_eq_true.1 (List.all_eq_true.1 hl _ m2) _ n1) _ n2
  simp only [decide_true, Bool.not_true, Bool.false_or] at hl
  exact apart_false inD_apart hl h3 h4

end Verif.Auto
