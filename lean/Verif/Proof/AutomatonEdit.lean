import Verif.Proof.AutomatonTable
import Verif.Spec.Missing

/-!
# Texts that differ in a punctuation mark
-/

namespace Verif.Auto
open Nom Spec

variable {y z : Str}

/-- All common words begin with one of the first items, then one of the second, and so on. -/
def forced : List (List Wd) → St → St → Bool
  | [], _, _ => Bool.true
  | ks :: l, p, q => inD p q || (!(final p && final q) &&
      steps inD (fun h h' p' q' => ks.any (fun k => decide (h = .w k) || decide (h' = .w k)) && forced l p' q') (fun _ _ _ _ _ => Bool.false) p q)

/-- The first items are among the given ones. -/
def Begins : List (List Wd) → List Str → Prop
  | [], _ => True
  | _ :: _, [] => False
  | ks :: l, w :: ls => (∃ k ∈ ks, w = Wd.text k) ∧ Begins l ls

theorem forced_spec {l : List (List Wd)} {p q : St} {ls : List Str} (h : forced l p q = Bool.true) (h1 : Acc y p ls) (h2 : Acc z q ls) :
    Begins l ls := by
  induction l generalizing p q ls with
  | nil => cases ls <;> trivial
  | cons ks l ih =>
    rcases Bool.or_eq_true_iff.1 h with h | h
    · exact (apart_false inD_apart h h1 h2).elim
    · obtain ⟨hf, hs⟩ := Bool.and_eq_true_iff.1 h
      rcases step_cases inD_apart hs h1 h2 with ⟨-, h3, h4⟩ | ⟨hd, hd', p', q', w, rest, rfl, hw, hw', hP, h3, h4⟩ | ⟨_, _, _, _, _, _, _, _, hQ, _⟩
      · simp [h3, h4] at hf
      · obtain ⟨hk, hl⟩ := Bool.and_eq_true_iff.1 hP
        obtain ⟨k, hk, hk'⟩ := List.any_eq_true.1 hk
        refine ⟨⟨k, hk, ?_⟩, ih hl h3 h4⟩
        rcases Bool.or_eq_true_iff.1 hk' with h | h
        · have h := of_decide_eq_true h
          subst h; exact hw
        · have h := of_decide_eq_true h
          subst h; exact hw'
      · simp at hQ

/-- All common words begin with an opening bracket. -/
def opens (b : Br) (p q : St) : Bool := inD p q || !(final p && final q) &&
  steps inD (fun _ _ _ _ => Bool.false) (fun b' _ _ _ _ => decide (b' = b)) p q

theorem opens_spec {b : Br} {p q : St} {ls : List Str} (h : opens b p q = Bool.true) (h1 : Acc y p ls) (h2 : Acc z q ls) :
    ∃ rest, ls = b.opening :: rest := by
  rcases Bool.or_eq_true_iff.1 h with h | h
  · exact (apart_false inD_apart h h1 h2).elim
  obtain ⟨hf, hs⟩ := Bool.and_eq_true_iff.1 h
  rcases step_cases inD_apart hs h1 h2 with ⟨-, h3, h4⟩ | ⟨_, _, _, _, _, _, _, _, _, hP, _⟩ | ⟨b', r, r', p', q', c, rest, rfl, hQ, -⟩
  · simp [h3, h4] at hf
  · simp at hP
  · have hQ := of_decide_eq_true hQ
    subst hQ
    exact ⟨_, rfl⟩

def Hd.isName : Hd → Bool
  | .w k => k.isName
  | .name _ => Bool.true
  | _ => Bool.false

theorem Hd.isName_spec {h : Hd} {w : Str} (hn : h.isName = Bool.true) (hw : h.has y w) : Tk.name.has w := by
  cases h with
  | w k => exact hw ▸ Wd.alpha hn
  | name ex => exact hw.1
  | _ => simp [Hd.isName] at hn

/-- All common words begin with a word and `(`. -/
def nameRound (p q : St) : Bool := !(final p && final q) &&
  steps inD (fun h _ p' q' => h.isName && opens .round p' q') (fun _ _ _ _ _ => Bool.false) p q

theorem nameRound_spec {p q : St} {ls : List Str} (h : nameRound p q = Bool.true) (h1 : Acc y p ls) (h2 : Acc z q ls) :
    ∃ w rest, ls = w :: c!"(" :: rest ∧ Tk.name.has w := by
  obtain ⟨hf, hs⟩ := Bool.and_eq_true_iff.1 h
  rcases step_cases inD_apart hs h1 h2 with ⟨-, h3, h4⟩ | ⟨hd, hd', p', q', w, rest, rfl, hw, hw', hP, h3, h4⟩ | ⟨_, _, _, _, _, _, _, _, hQ, _⟩
  · simp [h3, h4] at hf
  · obtain ⟨hn, ho⟩ := Bool.and_eq_true_iff.1 hP
    obtain ⟨rest, rfl⟩ := opens_spec ho h3 h4
    exact ⟨w, rest, rfl, Hd.isName_spec hn hw⟩
  · simp at hQ

/-- All common words begin with `()`. -/
def emptyRound (p q : St) : Bool := !(final p && final q) &&
  steps inD (fun _ _ _ _ => Bool.false) (fun b r r' _ _ => decide (b = .round) && onlyEnd inD (start r) (start r')) p q

theorem emptyRound_spec {p q : St} {ls : List Str} (h : emptyRound p q = Bool.true) (h1 : Acc y p ls) (h2 : Acc z q ls) :
    ∃ rest, ls = c!"(" :: c!")" :: rest := by
  obtain ⟨hf, hs⟩ := Bool.and_eq_true_iff.1 h
  rcases step_cases inD_apart hs h1 h2 with ⟨-, h3, h4⟩ | ⟨_, _, _, _, _, _, _, _, _, hP, _⟩ | ⟨b, r, r', p', q', c, rest, rfl, hQ, hc, hc', -⟩
  · simp [h3, h4] at hf
  · simp at hP
  · obtain ⟨hb, ho⟩ := Bool.and_eq_true_iff.1 hQ
    have hb := of_decide_eq_true hb
    subst hb
    cases onlyEnd_spec inD_apart ho hc hc'
    exact ⟨rest, rfl⟩

def after (l : List (List Tk)) (p q : St) : Bool := weaker (hist p) l || weaker (hist q) l

theorem after_spec {l : List (List Tk)} {p q : St} {pre : List Str} (h : after l p q = Bool.true) (hp : Hist p pre) (hq : Hist q pre) :
    Match l pre.reverse := by
  rcases Bool.or_eq_true_iff.1 h with h | h
  · exact hp.weaker h
  · exact hq.weaker h

theorem match_one {ts : List Tk} {pre : List Str} (h : Match [ts] pre.reverse) : ∃ a x, pre = a ++ [x] ∧ ∃ t ∈ ts, t.has x := by
  generalize hr : pre.reverse = r at h
  cases r with
  | nil => exact h.elim
  | cons x r =>
    have := congrArg List.reverse hr
    exact ⟨r.reverse, x, by simpa using this, h.1⟩

theorem match_w {k : Wd} {pre : List Str} (h : Match [[.w k]] pre.reverse) : ∃ a, pre = a ++ [k.text] := by
  obtain ⟨a, x, rfl, t, ht, hx⟩ := match_one h
  simp only [List.mem_singleton] at ht
  subst ht
  cases hx
  exact ⟨a, rfl⟩

theorem match_ww {k k' : Wd} {pre : List Str} (h : Match [[.w k'], [.w k]] pre.reverse) : ∃ a, pre = a ++ [k.text, k'.text] := by
  obtain ⟨a, rfl⟩ := match_w (k := k') (pre := pre) (h.weaker (by simp [weaker, Tk.sub]))
  simp only [List.reverse_append, List.reverse_cons, List.reverse_nil, List.nil_append, List.cons_append] at h
  obtain ⟨a, rfl⟩ := match_w h.2
  exact ⟨a, by simp⟩

/-! ## A mark left out -/

def lacks : Wd → St → St → St → Bool
  | .semi, p, p', q => after [[.w .stringifier]] p q || forced [[.stringifier], [.semi]] p' q
  | .comma, p, p', q => onlyEnd inD p' q || after [[.w .long]] p q && forced [[.long]] p' q ||
      after [[.w .unsigned]] p q && forced [[.long, .short]] p' q || after [[.w .unrestricted]] p q && forced [[.float, .double]] p' q
  | .eq, _, p', q => emptyRound p' q
  | .colon, p, _, q => after [[.w .mixin], [.w .interface]] p q
  | _, _, _, _ => Bool.false

def seps : List Wd := [.comma, .semi, .colon, .eq, .star]

def lackOk (p q : St) : Bool :=
  seps.all fun k => (next p).all fun x => !compat x.1 (.w k) || inD x.2 q || lacks k p x.2 q

theorem inA_lack : ∀ p q, inA p q = Bool.true → lackOk p q = Bool.true :=
  fun _ _ => forRows_spec (f := lackOk) (by decide +kernel)

/-! ## A mark exchanged -/

def changes : Wd → Wd → St → St → Bool
  | .query, .dots, _, _ | .dots, .query, _, _ | .comma, .eq, _, _ | .eq, .comma, _, _ => Bool.true
  | .semi, .query, p, q | .query, .semi, p, q => forced [[.stringifier], [.semi]] p q
  | _, _, _, _ => Bool.false

def allMarks : List Wd := seps ++ [.query, .dots]

def changeOk (p q : St) : Bool :=
  allMarks.all fun k => allMarks.all fun k' => decide (k = k') || (next p).all fun x => !compat x.1 (.w k) || (next q).all fun y =>
    !compat y.1 (.w k') || inD x.2 y.2 || changes k k' x.2 y.2

theorem inA_change : ∀ p q, inA p q = Bool.true → changeOk p q = Bool.true :=
  fun _ _ => forRows_spec (f := changeOk) (by decide +kernel)

/-! ## The exceptions -/

theorem lack {a b : List Str} {x : Str} (hx : x ∈ separators) (h1 : Acc y .doc (a ++ [x] ++ b)) (h2 : Acc z .doc (a ++ b)) :
    MayLack a x b ∨ x = c!"," ∧ Tail b := by
  obtain ⟨k, hk, rfl⟩ : ∃ k ∈ seps, x = Wd.text k := by
    simp only [separators, List.mem_cons, List.not_mem_nil, or_false] at hx
    rcases hx with rfl | rfl | rfl | rfl | rfl
    · exact ⟨.comma, by decide, rfl⟩
    · exact ⟨.semi, by decide, rfl⟩
    · exact ⟨.colon, by decide, rfl⟩
    · exact ⟨.eq, by decide, rfl⟩
    · exact ⟨.star, by decide, rfl⟩
  have hf : Flat k.text := has_flat (y := []) (h := .w k) rfl
  obtain ⟨p, q, b', t, hA, rfl, ht, h3, h4, hp, hq, hr⟩ := sync (v := []) (pre := []) inD_apart inA_along (p := .doc) (q := .doc) (by decide) h1 rfl
    (by simpa using h2) (by simpa using hf) (by simp) (.nil rfl) (.nil rfl) (by intro h; simp [attrSemi] at h)
  have h4 : Acc z q b' := h4
  simp only [List.nil_append] at hp hq
  have hl := List.all_eq_true.1 (inA_lack _ _ hA) _ hk
  generalize hg : [k.text] ++ b' = M at h3
  cases h3 with
  | done hf' => simp at hg
  | group hm hc hs =>
    simp only [List.cons_append, List.cons.injEq] at hg
    exact (opening_not_flat _ (hg.1 ▸ hf)).elim
  | @item _ p' hd w ls hm hw hs =>
    simp only [List.cons_append, List.nil_append, List.cons.injEq] at hg
    obtain ⟨rfl, rfl⟩ := hg
    have hl := List.all_eq_true.1 hl _ hm
    have hc := compat_of hw (show (Hd.w k).has [] k.text from rfl)
    simp only [hc, Bool.not_true, Bool.false_or, Bool.or_eq_true] at hl
    rcases hl with hl | hl
    · exact (apart_false inD_apart hl hs h4).elim
    · clear h1 h2 hf hm hw hc hA
      simp only [seps, List.mem_cons, List.not_mem_nil, or_false] at hk
      rcases hk with rfl | rfl | rfl | rfl | rfl
      · simp only [lacks, Bool.or_eq_true, Bool.and_eq_true] at hl
        rcases hl with ((hl | ⟨hl, hb⟩) | ⟨hl, hb⟩) | ⟨hl, hb⟩
        · cases onlyEnd_spec inD_apart hl hs h4
          exact .inr ⟨rfl, by simpa using ht⟩
        all_goals
          obtain ⟨a, rfl⟩ := match_w (after_spec hl hp hq)
          have hb := forced_spec hb hs h4
          cases b' with
          | nil => exact hb.elim
          | cons w b' =>
            obtain ⟨⟨k, hk, rfl⟩, -⟩ := hb
            simp only [List.mem_cons, List.not_mem_nil, or_false] at hk
            first
            | (subst hk; exact .inl (.words (by decide)))
            | (rcases hk with rfl | rfl <;> exact .inl (.words (by decide)))
      · simp only [lacks, Bool.or_eq_true] at hl
        rcases hl with hl | hl
        · obtain ⟨a, rfl⟩ := match_w (after_spec hl hp hq)
          exact .inl .stringifier
        · have hb := forced_spec hl hs h4
          match b', hb with
          | w :: w' :: b', ⟨⟨k, hk, e⟩, ⟨k', hk', e'⟩, _⟩ =>
            simp only [List.mem_cons, List.not_mem_nil, or_false] at hk hk'
            subst hk hk' e e'
            exact .inl .name
      · obtain ⟨a, rfl⟩ := match_ww (after_spec hl hp hq)
        exact .inl .mixin
      · obtain ⟨rest, rfl⟩ := emptyRound_spec hl hs h4
        exact .inl .none
      · simp [lacks] at hl

theorem change {a b : List Str} {x x' : Str} (hx : x ∈ signs) (hy : x' ∈ signs) (hne : x ≠ x') (h1 : Acc y .doc (a ++ [x] ++ b))
    (h2 : Acc z .doc (a ++ [x'] ++ b)) : MayChange x x' b ∨ MayChange x' x b := by
  have aux : ∀ x ∈ signs, ∃ k ∈ allMarks, x = Wd.text k := by
    intro x hx
    simp only [signs, separators, List.mem_append, List.mem_cons, List.not_mem_nil, or_false] at hx
    rcases hx with (rfl | rfl | rfl | rfl | rfl) | rfl | rfl
    · exact ⟨.comma, by decide, rfl⟩
    · exact ⟨.semi, by decide, rfl⟩
    · exact ⟨.colon, by decide, rfl⟩
    · exact ⟨.eq, by decide, rfl⟩
    · exact ⟨.star, by decide, rfl⟩
    · exact ⟨.query, by decide, rfl⟩
    · exact ⟨.dots, by decide, rfl⟩
  obtain ⟨k, hk, rfl⟩ := aux x hx
  obtain ⟨k', hk', rfl⟩ := aux x' hy
  have hf : Flat k.text := has_flat (y := []) (h := .w k) rfl
  have hf' : Flat k'.text := has_flat (y := []) (h := .w k') rfl
  obtain ⟨p, q, b', t, hA, rfl, ht, h3, h4, hp, hq, hr⟩ := sync (v := [k'.text]) (pre := []) inD_apart inA_along (p := .doc) (q := .doc)
    (by decide) h1 rfl (by simpa using h2) (by simpa using hf) (by simpa using hf') (.nil rfl) (.nil rfl) (by intro h; simp [attrSemi] at h)
  have hl := List.all_eq_true.1 (List.all_eq_true.1 (inA_change _ _ hA) _ hk) _ hk'
  have hkk : k ≠ k' := fun h => hne (by rw [h])
  simp only [hkk, decide_false, Bool.false_or] at hl
  generalize hg : [k.text] ++ b' = M at h3
  generalize hg' : [k'.text] ++ b' = M' at h4
  cases h3 with
  | done hf' => simp at hg
  | group hm hc hs =>
    simp only [List.cons_append, List.cons.injEq] at hg
    exact (opening_not_flat _ (hg.1 ▸ hf)).elim
  | @item _ p' hd w ls hm hw hs =>
  cases h4 with
  | done hf' => simp at hg'
  | group hm hc hs =>
    simp only [List.cons_append, List.cons.injEq] at hg'
    exact (opening_not_flat _ (hg'.1 ▸ hf')).elim
  | @item _ q' hd' w' ls' hm' hw' hs' =>
    simp only [List.cons_append, List.nil_append, List.cons.injEq] at hg hg'
    obtain ⟨rfl, rfl⟩ := hg
    obtain ⟨rfl, rfl⟩ := hg'
    have hl := List.all_eq_true.1 hl _ hm
    have hc := compat_of hw (show (Hd.w k).has [] k.text from rfl)
    simp only [hc, Bool.not_true, Bool.false_or] at hl
    have hl := List.all_eq_true.1 hl _ hm'
    have hc' := compat_of hw' (show (Hd.w k').has [] k'.text from rfl)
    simp only [hc', Bool.not_true, Bool.false_or, Bool.or_eq_true] at hl
    rcases hl with hl | hl
    · exact (apart_false inD_apart hl hs hs').elim
    · have key : forced [[.stringifier], [.semi]] p' q' = Bool.true → ∃ r, b' = c!"stringifier" :: c!";" :: r := by
        intro hl
        have hb := forced_spec hl hs hs'
        match b', hb with
        | w :: w' :: b', ⟨⟨k, hk, e⟩, ⟨k', hk', e'⟩, _⟩ =>
          simp only [List.mem_cons, List.not_mem_nil, or_false] at hk hk'
          subst hk hk' e e'
          exact ⟨_, rfl⟩
      unfold changes at hl
      split at hl
      · exact .inl .argument
      · exact .inr .argument
      · exact .inl .attribute
      · exact .inr .attribute
      · obtain ⟨r, rfl⟩ := key hl; exact .inl .name
      · obtain ⟨r, rfl⟩ := key hl; exact .inr .name
      · simp at hl

end Verif.Auto
