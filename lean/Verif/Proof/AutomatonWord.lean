import Verif.Proof.AutomatonEdit
import Verif.Spec.Words

/-!
# Texts that differ in a word
-/

namespace Verif.Auto
open Nom Spec

variable {y z : Str}

/-! ## A word left out -/

def nameLacks (p p' q : St) : Bool :=
  after [[.name, .cl .round, .cl .angle, .w .query]] p q && opens .round p' q || nameRound p' q ||
  after [[.op .round]] p q && onlyEnd inD p' q || after [[.op .square]] p q && onlyEnd inD p' q ||
  attrSemi p q && forced [[.semi]] p' q || after [[.w .eq]] p q && emptyRound p' q ||
  after [[.w .mixin], [.w .interface]] p q && opens .curly p' q

def nameLackOk (p q : St) : Bool :=
  (next p).all fun x => match x.1 with
    | .name _ => inD x.2 q || nameLacks p x.2 q
    | _ => Bool.true

theorem inA_nameLack : ∀ p q, inA p q = Bool.true → nameLackOk p q = Bool.true :=
  fun _ _ => forRows_spec (f := nameLackOk) (by decide +kernel)

theorem plain_ne {x : Str} (hx : PlainName x) (k : Wd) : x ≠ k.text := by
  rintro rfl
  obtain ⟨⟨c, v, he, hc⟩, hk⟩ := hx
  cases k <;> first
    | exact hk (by decide)
    | (injection he with h1 _; subst h1; revert hc; decide)

theorem word_flat {x : Str} (hx : IsWord x) : Flat x := by
  obtain ⟨c, v, rfl, hc⟩ := hx
  intro p hp
  simp only [pairs, List.mem_cons, List.not_mem_nil, or_false] at hp
  rcases hp with rfl | rfl | rfl | rfl <;> constructor <;> rintro h <;> simp at h <;> obtain ⟨rfl, rfl⟩ := h <;>
    (revert hc; decide)

theorem plain_name {x : Str} (hx : PlainName x) {h : Hd} (hw : h.has y x) : ∃ ex, h = .name ex := by
  cases h with
  | w k => exact absurd hw (plain_ne hx k)
  | name ex => exact ⟨ex, rfl⟩
  | str =>
    obtain ⟨⟨c, v, rfl, hc⟩, -⟩ := hx
    obtain ⟨v', he⟩ := hw
    injection he with h1 _; subst h1
    exact absurd hc (by decide)
  | num =>
    obtain ⟨⟨c, v, rfl, hc⟩, -⟩ := hx
    obtain ⟨c', v', he, hc'⟩ := hw
    injection he with h1 _; subst h1
    rcases hc with hc | rfl
    · rcases hc' with hc' | rfl | rfl
      · simp [IsDig, Char.isAlpha, Char.isUpper, Char.isLower, Char.le_def, UInt32.le_iff_toNat_le] at hc hc'
        omega
      · exact absurd hc (by decide)
      · exact absurd hc (by decide)
    · rcases hc' with hc' | hc' | hc' <;> (revert hc'; simp [IsDig]; try decide)
  | grp b r => exact hw.elim

theorem match_op {b : Br} {pre : List Str} (h : Match [[.op b]] pre.reverse) : ∃ a, pre = a ++ [b.opening] := by
  obtain ⟨a, x, rfl, t, ht, hx⟩ := match_one h
  simp only [List.mem_singleton] at ht
  subst ht
  cases hx
  exact ⟨a, rfl⟩

theorem lackWord {a b : List Str} {x : Str} (hx : PlainName x) (h1 : Acc y .doc (a ++ [x] ++ b)) (h2 : Acc z .doc (a ++ b)) :
    WordMayLack a b ∨ ∃ a' o, a = a' ++ [o] ∧ o ∈ [c!"(", c!"["] ∧ Tail b := by
  have hf : Flat x := word_flat hx.1
  obtain ⟨p, q, b', t, hA, rfl, ht, h3, h4, hp, hq, hr⟩ := sync (v := []) (pre := []) inD_apart inA_along (p := .doc) (q := .doc) (by decide) h1 rfl
    (by simpa using h2) (by simpa using hf) (by simp) (.nil rfl) (.nil rfl) (by intro h; simp [attrSemi] at h)
  have h4 : Acc z q b' := h4
  simp only [List.nil_append] at hp hq hr
  have hl := inA_nameLack _ _ hA
  generalize hg : [x] ++ b' = M at h3
  cases h3 with
  | done hf' => simp at hg
  | group hm hc hs =>
    simp only [List.cons_append, List.cons.injEq] at hg
    exact (opening_not_flat _ (hg.1 ▸ hf)).elim
  | @item _ p' hd w ls hm hw hs =>
    simp only [List.cons_append, List.nil_append, List.cons.injEq] at hg
    obtain ⟨rfl, rfl⟩ := hg
    have hl := List.all_eq_true.1 hl _ hm
    obtain ⟨ex, rfl⟩ := plain_name hx hw
    simp only [Bool.or_eq_true] at hl
    rcases hl with hl | hl
    · exact (apart_false inD_apart hl hs h4).elim
    simp only [nameLacks, Bool.or_eq_true, Bool.and_eq_true] at hl
    rcases hl with (((((⟨hl, hb⟩ | hb) | ⟨hl, hb⟩) | ⟨hl, hb⟩) | ⟨hl, hb⟩) | ⟨hl, hb⟩) | ⟨hl, hb⟩
    · obtain ⟨a, w, rfl, k, hk, hw⟩ := match_one (after_spec hl hp hq)
      obtain ⟨rest, rfl⟩ := opens_spec hb hs h4
      refine .inl (.operation ?_)
      simp only [List.mem_cons, List.not_mem_nil, or_false] at hk
      rcases hk with rfl | rfl | rfl | rfl
      · exact .inl hw
      all_goals cases hw; exact .inr (by decide)
    · obtain ⟨w, rest, rfl, hw⟩ := nameRound_spec hb hs h4
      exact .inl (.type hw)
    · obtain ⟨a, rfl⟩ := match_op (after_spec hl hp hq)
      cases onlyEnd_spec inD_apart hb hs h4
      exact .inr ⟨a, _, rfl, by decide, by simpa using ht⟩
    · obtain ⟨a, rfl⟩ := match_op (after_spec hl hp hq)
      cases onlyEnd_spec inD_apart hb hs h4
      exact .inr ⟨a, _, rfl, by decide, by simpa using ht⟩
    · obtain ⟨a, c, rfl, hc⟩ := hr hl
      have hb := forced_spec hb hs h4
      match b', hb with
      | w :: b', ⟨⟨k, hk, e⟩, _⟩ =>
        simp only [List.mem_singleton] at hk
        subst hk e
        exact .inl (.attribute hc)
    · obtain ⟨a, rfl⟩ := match_w (after_spec hl hp hq)
      obtain ⟨rest, rfl⟩ := emptyRound_spec hb hs h4
      exact .inl .value
    · obtain ⟨a, rfl⟩ := match_ww (after_spec hl hp hq)
      obtain ⟨rest, rfl⟩ := opens_spec hb hs h4
      exact .inl .mixin

/-! ## Keywords -/

/-- The keywords that are not types, and do not begin types. -/
def kws : List Wd :=
  [.async, .attr_, .callback, .const, .constructor, .deleter, .dictionary, .enum, .frozenArray, .getter, .implements, .includes, .inherit,
   .interface, .iterable, .legacycaller, .maplike, .mixin, .nspace, .optional, .or, .part, .promise, .readonly, .record, .required,
   .sequence, .setlike, .setter, .static, .stringifier, .typedef, .tru, .fls, .null, .infinity, .nan]

def reqs : List Wd :=
  [.attr_, .const, .constructor, .dictionary, .enum, .frozenArray, .implements, .includes, .interface, .iterable, .maplike, .nspace, .or,
   .promise, .record, .sequence, .setlike, .typedef, .tru, .fls, .null, .infinity, .nan]

theorem kws_spec {k : Str} (h : k ∈ grammarWords) (h' : k ∉ typeKeywords) : ∃ w ∈ kws, k = Wd.text w := by
  have : ∀ k ∈ grammarWords, k ∉ typeKeywords → k ∈ kws.map Wd.text := by decide
  obtain ⟨w, hw, rfl⟩ := List.mem_map.1 (this k h h')
  exact ⟨w, hw, rfl⟩

theorem reqs_spec {k : Str} (h : k ∈ Spec.required) : ∃ w ∈ reqs, k = Wd.text w := by
  have : ∀ k ∈ Spec.required, k ∈ reqs.map Wd.text := by decide
  obtain ⟨w, hw, rfl⟩ := List.mem_map.1 (this k h)
  exact ⟨w, hw, rfl⟩

def kwChanges : Wd → St → St → Bool
  | .constructor, p', q' => opens .round p' q'
  | .static, p', q' | .getter, p', q' | .setter, p', q' | .deleter, p', q' | .legacycaller, p', q' | .stringifier, p', q' => nameRound p' q'
  | .typedef, p', q' => forced [[.includes, .implements]] p' q'
  | _, _, _ => Bool.false

def kwChangeOk (p q : St) : Bool :=
  (next p).all fun x => match x.1 with
    | .w k => !decide (k ∈ kws) || (next q).all fun y => match y.1 with
      | .name _ => inD x.2 y.2 || kwChanges k x.2 y.2
      | _ => Bool.true
    | _ => Bool.true

theorem inA_kwChange : ∀ p q, inA p q = Bool.true → kwChangeOk p q = Bool.true :=
  fun _ _ => forRows_spec (f := kwChangeOk) (by decide +kernel)

def kwLacks : Wd → St → St → St → Bool
  | .or, p, p', q => after [[.w .long]] p q && forced [[.long]] p' q ||
      after [[.w .unsigned]] p q && forced [[.long, .short]] p' q || after [[.w .unrestricted]] p q && forced [[.float, .double]] p' q
  | _, _, _, _ => Bool.false

def kwLackOk (p q : St) : Bool :=
  (next p).all fun x => match x.1 with
    | .w k => !decide (k ∈ reqs) || inD x.2 q || kwLacks k p x.2 q
    | _ => Bool.true

theorem inA_kwLack : ∀ p q, inA p q = Bool.true → kwLackOk p q = Bool.true :=
  fun _ _ => forRows_spec (f := kwLackOk) (by decide +kernel)

/-- A keyword that is not read as a name is read as a keyword. -/
theorem kw_hd {k : Wd} (hk : k.isName = Bool.true) {h : Hd} (hw : h.has k.text k.text) : h = .w k := by
  have hc := compat_of hw (show (Hd.w k).has [] k.text from rfl)
  cases h with
  | w k' => simpa [compat] using hc
  | name ex => exact absurd rfl hw.2.2
  | num =>
    simp only [compat, decide_eq_true_eq] at hc
    rcases hc with rfl | rfl <;> exact absurd hk (by decide)
  | _ => simp [compat] at hc

theorem kws_name : ∀ k ∈ kws, k.isName = Bool.true := by decide

theorem reqs_name : ∀ k ∈ reqs, k.isName = Bool.true := by decide

theorem changeKw {a b : List Str} {k : Wd} {x : Str} (hk : k ∈ kws) (hx : PlainName x) (h1 : Acc k.text .doc (a ++ [k.text] ++ b))
    (h2 : Acc z .doc (a ++ [x] ++ b)) : KeywordMayChange k.text b := by
  have hf : Flat k.text := has_flat (y := []) (h := .w k) rfl
  have hf' : Flat x := word_flat hx.1
  obtain ⟨p, q, b', t, hA, rfl, ht, h3, h4, -⟩ := sync (v := [x]) (pre := []) inD_apart inA_along (p := .doc) (q := .doc)
    (by decide) h1 rfl (by simpa using h2) (by simpa using hf) (by simpa using hf') (.nil rfl) (.nil rfl) (by intro h; simp [attrSemi] at h)
  have hl := inA_kwChange _ _ hA
  generalize hg : [k.text] ++ b' = M at h3
  generalize hg' : [x] ++ b' = M' at h4
  cases h3 with
  | done hf' => simp at hg
  | group hm hc hs =>
    simp only [List.cons_append, List.cons.injEq] at hg
    exact (opening_not_flat _ (hg.1 ▸ hf)).elim
  | @item _ p' hd w ls hm hw hs =>
  cases h4 with
  | done hf' => simp at hg'
  | group hm hc hs =>
    simp only [List.cons_append, List.cons.injEq] at hg'
    exact (opening_not_flat _ (hg'.1 ▸ hf')).elim
  | @item _ q' hd' w' ls' hm' hw' hs' =>
    simp only [List.cons_append, List.nil_append, List.cons.injEq] at hg hg'
    obtain ⟨rfl, rfl⟩ := hg
    obtain ⟨rfl, rfl⟩ := hg'
    have hd := kw_hd (kws_name k hk) hw
    subst hd
    obtain ⟨ex, rfl⟩ := plain_name hx hw'
    have hl := List.all_eq_true.1 hl _ hm
    simp only [hk, decide_true, Bool.not_true, Bool.false_or] at hl
    have hl := List.all_eq_true.1 hl _ hm'
    simp only [Bool.or_eq_true] at hl
    rcases hl with hl | hl
    · exact (apart_false inD_apart hl hs hs').elim
    unfold kwChanges at hl
    split at hl
    · obtain ⟨rest, rfl⟩ := opens_spec hl hs hs'
      exact .constructor
    · obtain ⟨w, rest, rfl, hw⟩ := nameRound_spec hl hs hs'
      exact .modifier (by decide) hw
    · obtain ⟨w, rest, rfl, hw⟩ := nameRound_spec hl hs hs'
      exact .modifier (by decide) hw
    · obtain ⟨w, rest, rfl, hw⟩ := nameRound_spec hl hs hs'
      exact .modifier (by decide) hw
    · obtain ⟨w, rest, rfl, hw⟩ := nameRound_spec hl hs hs'
      exact .modifier (by decide) hw
    · obtain ⟨w, rest, rfl, hw⟩ := nameRound_spec hl hs hs'
      exact .modifier (by decide) hw
    · obtain ⟨w, rest, rfl, hw⟩ := nameRound_spec hl hs hs'
      exact .modifier (by decide) hw
    · have hb := forced_spec hl hs hs'
      match b', hb with
      | w :: b', ⟨⟨k, hk, e⟩, _⟩ =>
        simp only [List.mem_cons, List.not_mem_nil, or_false] at hk
        subst e
        exact .typedef (by rcases hk with rfl | rfl <;> decide)
    · simp at hl

theorem lackKw {a b : List Str} {k : Wd} (hk : k ∈ reqs) (h1 : Acc k.text .doc (a ++ [k.text] ++ b)) (h2 : Acc z .doc (a ++ b)) :
    KeywordMayLack a k.text b := by
  have hf : Flat k.text := has_flat (y := []) (h := .w k) rfl
  obtain ⟨p, q, b', t, hA, rfl, ht, h3, h4, hp, hq, hr⟩ := sync (v := []) (pre := []) inD_apart inA_along (p := .doc) (q := .doc) (by decide) h1 rfl
    (by simpa using h2) (by simpa using hf) (by simp) (.nil rfl) (.nil rfl) (by intro h; simp [attrSemi] at h)
  have h4 : Acc z q b' := h4
  simp only [List.nil_append] at hp hq
  have hl := inA_kwLack _ _ hA
  generalize hg : [k.text] ++ b' = M at h3
  cases h3 with
  | done hf' => simp at hg
  | group hm hc hs =>
    simp only [List.cons_append, List.cons.injEq] at hg
    exact (opening_not_flat _ (hg.1 ▸ hf)).elim
  | @item _ p' hd w ls hm hw hs =>
    simp only [List.cons_append, List.nil_append, List.cons.injEq] at hg
    obtain ⟨rfl, rfl⟩ := hg
    have hd := kw_hd (reqs_name k hk) hw
    subst hd
    have hl := List.all_eq_true.1 hl _ hm
    simp only [hk, decide_true, Bool.not_true, Bool.false_or, Bool.or_eq_true] at hl
    rcases hl with hl | hl
    · exact (apart_false inD_apart hl hs h4).elim
    unfold kwLacks at hl
    split at hl
    · simp only [Bool.or_eq_true, Bool.and_eq_true] at hl
      rcases hl with (⟨hl, hb⟩ | ⟨hl, hb⟩) | ⟨hl, hb⟩
      all_goals
        obtain ⟨a, rfl⟩ := match_w (after_spec hl hp hq)
        have hb := forced_spec hb hs h4
        cases b' with
        | nil => exact hb.elim
        | cons w b' =>
          obtain ⟨⟨k, hk, rfl⟩, -⟩ := hb
          simp only [List.mem_cons, List.not_mem_nil, or_false] at hk
          first
          | (subst hk; exact .words (by decide))
          | (rcases hk with rfl | rfl <;> exact .words (by decide))
    · simp at hl

end Verif.Auto
