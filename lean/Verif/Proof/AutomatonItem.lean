import Verif.Proof.AutomatonWord
import Verif.Spec.Items

/-!
# Texts that differ in a literal, in a word and a mark, or in a keyword
-/

namespace Verif.Auto
open Nom Spec

variable {y z : Str}

/-! ## The states at the difference -/

theorem lack_at {a b : List Str} {x : Str} (hf : Flat x) (h1 : Acc y .doc (a ++ [x] ++ b)) (h2 : Acc z .doc (a ++ b)) :
    ∃ p q p' hd b' t, inA p q = Bool.true ∧ b = b' ++ t ∧ Tail t ∧ (hd, p') ∈ next p ∧ hd.has y x ∧ Acc y p' b' ∧ Acc z q b' ∧
      Hist p a ∧ Hist q a := by
  obtain ⟨p, q, b', t, hA, rfl, ht, h3, h4, hp, hq, hr⟩ := sync (v := []) (pre := []) inD_apart inA_along (p := .doc) (q := .doc) (by decide) h1 rfl
    (by simpa using h2) (by simpa using hf) (by simp) (.nil rfl) (.nil rfl) (by intro h; simp [attrSemi] at h)
  have h4 : Acc z q b' := h4
  simp only [List.nil_append] at hp hq
  generalize hg : [x] ++ b' = M at h3
  cases h3 with
  | done hf' => simp at hg
  | group hm hc hs =>
    simp only [List.cons_append, List.cons.injEq] at hg
    exact (opening_not_flat _ (hg.1 ▸ hf)).elim
  | @item _ p' hd w ls hm hw hs =>
    simp only [List.cons_append, List.nil_append, List.cons.injEq] at hg
    obtain ⟨rfl, rfl⟩ := hg
    exact ⟨p, q, p', hd, b', t, hA, rfl, ht, hm, hw, hs, h4, hp, hq⟩

theorem change_at {a b : List Str} {x x' : Str} (hf : Flat x) (hf' : Flat x') (h1 : Acc y .doc (a ++ [x] ++ b)) (h2 : Acc z .doc (a ++ [x'] ++ b)) :
    ∃ p q p' q' hd hd' b' t, inA p q = Bool.true ∧ b = b' ++ t ∧ (hd, p') ∈ next p ∧ (hd', q') ∈ next q ∧ hd.has y x ∧ hd'.has z x' ∧
      Acc y p' b' ∧ Acc z q' b' ∧ Hist p a ∧ Hist q a := by
  obtain ⟨p, q, b', t, hA, rfl, ht, h3, h4, hp, hq, hr⟩ := sync (v := [x']) (pre := []) inD_apart inA_along (p := .doc) (q := .doc)
    (by decide) h1 rfl (by simpa using h2) (by simpa using hf) (by simpa using hf') (.nil rfl) (.nil rfl) (by intro h; simp [attrSemi] at h)
  simp only [List.nil_append] at hp hq
  generalize hg : [x] ++ b' = M at h3
  generalize hg' : [x'] ++ b' = M' at h4
  cases h3 with
  | done hf' => simp at hg
  | group hm hc hs =>
    simp only [List.cons_append, List.cons.injEq] at hg
    exact (opening_not_flat _ (hg.1 ▸ hf)).elim
  | @item _ p' hd w ls hm hw hs =>
  cases h4 with
  | done hf' => simp at hg'
  | group hm hc hs =>
    simp only [List.cons_append, List.cons.injEq] at hg'
    exact (opening_not_flat _ (hg'.1 ▸ hf')).elim
  | @item _ q' hd' w' ls' hm' hw' hs' =>
    simp only [List.cons_append, List.nil_append, List.cons.injEq] at hg hg'
    obtain ⟨rfl, rfl⟩ := hg
    obtain ⟨rfl, rfl⟩ := hg'
    exact ⟨p, q, p', q', hd, hd', b', t, hA, rfl, hm, hm', hw, hw', hs, hs', hp, hq⟩

/-! ## Literals -/

/-- 1 for strings, 2 for numbers -/
def Hd.lit : Hd → Nat
  | .str => 1
  | .num | .w .negInfinity => 2
  | _ => 0

theorem digit_dig {c : Char} : c.isDigit = Bool.true ↔ IsDig c := by
  simp [IsDig, Char.isDigit, Char.le_def, UInt32.le_iff_toNat_le]

theorem alpha_not {c : Char} (h : c.isAlpha = Bool.true ∨ c = '_') : ¬ (IsDig c ∨ c = '.' ∨ c = '-') := by
  rintro hc'
  rcases h with hc | rfl
  · rcases hc' with hc' | rfl | rfl
    · simp [IsDig, Char.isAlpha, Char.isUpper, Char.isLower, Char.le_def, UInt32.le_iff_toNat_le] at hc hc'
      omega
    · exact absurd hc (by decide)
    · exact absurd hc (by decide)
  · rcases hc' with hc' | hc' | hc' <;> (revert hc'; simp [IsDig]; try decide)

theorem string_hd {x : Str} (hx : IsString x) {h : Hd} (hw : h.has y x) : h = .str := by
  obtain ⟨v, rfl⟩ := hx
  cases h with
  | w k =>
    have hw : '"' :: v = k.text := hw
    cases k <;> simp [Wd.text] at hw
  | name ex =>
    obtain ⟨⟨c, v', he, hc⟩, -⟩ := hw
    injection he with h1 _; subst h1
    exact absurd hc (by decide)
  | str => rfl
  | num =>
    obtain ⟨c, v', he, hc⟩ := hw
    injection he with h1 _; subst h1
    exact absurd hc (by simp [IsDig])
  | grp b r => exact hw.elim

theorem number_hd {x : Str} (hx : IsNumber x) {h : Hd} (hw : h.has y x) : h.lit = 2 := by
  obtain ⟨⟨c, v, rfl, hc⟩, hd⟩ := hx
  rw [digit_dig] at hc
  cases h with
  | w k =>
    have hw : c :: v = k.text := hw
    cases k
    case negInfinity => rfl
    case dots => exact absurd hw hd
    all_goals
      simp only [Wd.text, List.cons.injEq] at hw
      obtain ⟨rfl, -⟩ := hw
      revert hc; simp [IsDig]; try decide
  | name ex =>
    obtain ⟨⟨c, v', he, hc'⟩, -⟩ := hw
    injection he with h1 _; subst h1
    exact absurd hc (alpha_not hc')
  | str =>
    obtain ⟨v', he⟩ := hw
    injection he with h1 _; subst h1
    exact absurd hc (by simp [IsDig])
  | num => rfl
  | grp b r => exact hw.elim

theorem string_flat {x : Str} (hx : IsString x) : Flat x := has_flat (y := []) (h := .str) hx

theorem number_flat {x : Str} (hx : IsNumber x) : Flat x := by
  obtain ⟨⟨c, v, rfl, hc⟩, -⟩ := hx
  rw [digit_dig] at hc
  exact has_flat (y := []) (h := .num) ⟨c, v, rfl, hc⟩

def litLackOk (p q : St) : Bool :=
  (next p).all fun x => decide (x.1.lit = 0) || inD x.2 q || after [[.w .comma]] p q && onlyEnd inD x.2 q

theorem inA_litLack : ∀ p q, inA p q = Bool.true → litLackOk p q = Bool.true :=
  fun _ _ => forRows_spec (f := litLackOk) (by decide +kernel)

theorem lackLit {a b : List Str} {x : Str} (hx : IsString x ∨ IsNumber x) (h1 : Acc y .doc (a ++ [x] ++ b)) (h2 : Acc z .doc (a ++ b)) :
    (∃ a', a = a' ++ [c!","]) ∧ Tail b := by
  have hf : Flat x := hx.elim string_flat number_flat
  obtain ⟨p, q, p', hd, b', t, hA, rfl, ht, hm, hw, hs, h4, hp, hq⟩ := lack_at hf h1 h2
  have hl := List.all_eq_true.1 (inA_litLack _ _ hA) _ hm
  have hk : hd.lit ≠ 0 := by
    rcases hx with hx | hx
    · rw [string_hd hx hw]; decide
    · rw [number_hd hx hw]; decide
  simp only [hk, decide_false, Bool.false_or, Bool.or_eq_true, Bool.and_eq_true] at hl
  rcases hl with hl | ⟨hl, hb⟩
  · exact (apart_false inD_apart hl hs h4).elim
  · obtain ⟨a, rfl⟩ := match_w (after_spec hl hp hq)
    cases onlyEnd_spec inD_apart hb hs h4
    exact ⟨⟨_, rfl⟩, by simpa using ht⟩

def Hd.value : Hd → Bool
  | .str | .num | .w .negInfinity | .w .tru | .w .fls | .w .null | .w .infinity | .w .nan => Bool.true
  | _ => Bool.false

def Hd.value' : Hd → Bool
  | .name _ | .w .star => Bool.true
  | h => h.value

def Hd.isGrp : Hd → Bool
  | .grp .. => Bool.true
  | _ => Bool.false

def litChangeOk (p q : St) : Bool :=
  (next p).all fun x => (next q).all fun y => match x.1.lit with
    | 0 => Bool.true
    | 1 => y.1.isGrp || decide (y.1 = .str) || inD x.2 y.2 || after [[.w .eq]] p q && y.1.value'
    | _ => y.1.isGrp || inD x.2 y.2 || after [[.w .eq]] p q && y.1.value

theorem inA_litChange : ∀ p q, inA p q = Bool.true → litChangeOk p q = Bool.true :=
  fun _ _ => forRows_spec (f := litChangeOk) (by decide +kernel)

theorem Hd.value_spec {h : Hd} {w : Str} (hv : h.value = Bool.true) (hw : h.has y w) :
    IsString w ∨ IsNumber w ∨ w ∈ valueKeywords ∨ w = c!"..." := by
  by_cases hd : w = c!"..."
  · exact .inr (.inr (.inr hd))
  unfold Hd.value at hv
  split at hv
  · exact .inl hw
  · obtain ⟨c, v, rfl, hc⟩ := hw
    rw [← digit_dig] at hc
    exact .inr (.inl ⟨⟨c, v, rfl, hc⟩, hd⟩)
  · have hw : w = Wd.text .negInfinity := hw
    subst hw
    exact .inr (.inl ⟨⟨'-', _, rfl, .inr (.inr rfl)⟩, by decide⟩)
  iterate 5
    have hw : w = Wd.text _ := hw
    subst hw
    exact .inr (.inr (.inl (by decide)))
  simp at hv

theorem changeNumber {a b : List Str} {x x' : Str} (hx : IsNumber x) (hf' : Flat x') (h1 : Acc y .doc (a ++ [x] ++ b))
    (h2 : Acc z .doc (a ++ [x'] ++ b)) : (∃ a', a = a' ++ [c!"="]) ∧ (IsString x' ∨ IsNumber x' ∨ x' ∈ valueKeywords ∨ x' = c!"...") := by
  obtain ⟨p, q, p', q', hd, hd', b', t, hA, rfl, hm, hm', hw, hw', hs, hs', hp, hq⟩ := change_at (number_flat hx) hf' h1 h2
  have hl := List.all_eq_true.1 (List.all_eq_true.1 (inA_litChange _ _ hA) _ hm) _ hm'
  rw [number_hd hx hw] at hl
  simp only [Bool.or_eq_true, Bool.and_eq_true] at hl
  rcases hl with (hl | hl) | ⟨hl, hv⟩
  · cases hd' <;> first | exact hw'.elim | simp [Hd.isGrp] at hl
  · exact (apart_false inD_apart hl hs hs').elim
  · obtain ⟨a, rfl⟩ := match_w (after_spec hl hp hq)
    exact ⟨⟨_, rfl⟩, Hd.value_spec hv hw'⟩

theorem changeString {a b : List Str} {x x' : Str} (hx : IsString x) (hf' : Flat x') (hn : ¬ IsString x') (h1 : Acc y .doc (a ++ [x] ++ b))
    (h2 : Acc z .doc (a ++ [x'] ++ b)) : (∃ a', a = a' ++ [c!"="]) ∧ (IsNumber x' ∨ IsWord x' ∨ x' = c!"*" ∨ x' = c!"...") := by
  obtain ⟨p, q, p', q', hd, hd', b', t, hA, rfl, hm, hm', hw, hw', hs, hs', hp, hq⟩ := change_at (string_flat hx) hf' h1 h2
  have hl := List.all_eq_true.1 (List.all_eq_true.1 (inA_litChange _ _ hA) _ hm) _ hm'
  have hh := string_hd hx hw
  subst hh
  simp only [Hd.lit, Bool.or_eq_true, Bool.and_eq_true, decide_eq_true_eq] at hl
  rcases hl with ((hl | rfl) | hl) | ⟨hl, hv⟩
  · cases hd' <;> first | exact hw'.elim | simp [Hd.isGrp] at hl
  · exact absurd hw' hn
  · exact (apart_false inD_apart hl hs hs').elim
  · obtain ⟨a, rfl⟩ := match_w (after_spec hl hp hq)
    refine ⟨⟨_, rfl⟩, ?_⟩
    unfold Hd.value' at hv
    split at hv
    · exact .inr (.inl hw'.1)
    · exact .inr (.inr (.inl hw'))
    · rcases Hd.value_spec hv hw' with h | h | h | h
      · exact absurd h hn
      · exact .inl h
      · refine .inr (.inl ?_)
        simp only [valueKeywords, List.mem_cons, List.not_mem_nil, or_false] at h
        rcases h with rfl | rfl | rfl | rfl | rfl <;> exact ⟨_, _, rfl, by decide⟩
      · exact .inr (.inr (.inr h))

/-! ## A word and a mark -/

def markFor : Wd → St → St → St → St → Bool
  | .query, _, _, p', q' => opens .round p' q'
  | .star, p, q, _, _ => after [[.w .eq]] p q
  | .dots, p, q, _, _ => after [[.w .optional]] p q
  | .semi, p, q, _, _ => after [[.w .stringifier]] p q
  | _, _, _, _, _ => Bool.false

def markForOk (p q : St) : Bool :=
  (next p).all fun x => match x.1 with
    | .name _ => allMarks.all fun k => (next q).all fun y => !compat y.1 (.w k) || inD x.2 y.2 || markFor k p q x.2 y.2
    | _ => Bool.true

theorem inA_markFor : ∀ p q, inA p q = Bool.true → markForOk p q = Bool.true :=
  fun _ _ => forRows_spec (f := markForOk) (by decide +kernel)

theorem changeMark {a b : List Str} {x k : Str} (hx : PlainName x) (hk : k ∈ signs) (h1 : Acc y .doc (a ++ [x] ++ b))
    (h2 : Acc z .doc (a ++ [k] ++ b)) : MarkMayReplace a k b := by
  obtain ⟨k, hk', rfl⟩ : ∃ w ∈ allMarks, k = Wd.text w := by
    have : ∀ k ∈ signs, k ∈ allMarks.map Wd.text := by decide
    obtain ⟨w, hw, rfl⟩ := List.mem_map.1 (this k hk)
    exact ⟨w, hw, rfl⟩
  have hf : Flat k.text := has_flat (y := []) (h := .w k) rfl
  obtain ⟨p, q, p', q', hd, hd', b', t, hA, rfl, hm, hm', hw, hw', hs, hs', hp, hq⟩ := change_at (word_flat hx.1) hf h1 h2
  obtain ⟨ex, rfl⟩ := plain_name hx hw
  have hl := List.all_eq_true.1 (List.all_eq_true.1 (List.all_eq_true.1 (inA_markFor _ _ hA) _ hm) _ hk') _ hm'
  have hc := compat_of hw' (show (Hd.w k).has [] k.text from rfl)
  simp only [hc, Bool.not_true, Bool.false_or, Bool.or_eq_true] at hl
  rcases hl with hl | hl
  · exact (apart_false inD_apart hl hs hs').elim
  unfold markFor at hl
  split at hl
  · obtain ⟨rest, rfl⟩ := opens_spec hl hs hs'
    exact .nullable
  · obtain ⟨a, rfl⟩ := match_w (after_spec hl hp hq)
    exact .any
  · obtain ⟨a, rfl⟩ := match_w (after_spec hl hp hq)
    exact .variadic
  · obtain ⟨a, rfl⟩ := match_w (after_spec hl hp hq)
    exact .stringifier
  · simp at hl

/-! ## Two keywords -/

def kwClasses : List (List Wd) :=
  [[.callback, .part], [.interface, .dictionary, .nspace], [.includes, .implements],
   [.getter, .setter, .deleter, .legacycaller, .static, .stringifier], [.inherit, .readonly, .static, .stringifier],
   [.iterable, .maplike], [.iterable, .setlike], [.frozenArray, .promise, .sequence], [.tru, .fls, .null, .infinity, .nan]]

def kwKwOk (p q : St) : Bool :=
  (next p).all fun x => match x.1 with
    | .w k => !decide (k ∈ kws) || (next q).all fun y => match y.1 with
      | .w k' => !decide (k' ∈ kws) || decide (k = k') || inD x.2 y.2 || kwClasses.any fun c => decide (k ∈ c) && decide (k' ∈ c)
      | _ => Bool.true
    | _ => Bool.true

theorem inA_kwKw : ∀ p q, inA p q = Bool.true → kwKwOk p q = Bool.true :=
  fun _ _ => forRows_spec (f := kwKwOk) (by decide +kernel)

theorem changeKwKw {a b : List Str} {k k' : Wd} (hk : k ∈ kws) (hk' : k' ∈ kws) (hne : k ≠ k') (h1 : Acc k.text .doc (a ++ [k.text] ++ b))
    (h2 : Acc k'.text .doc (a ++ [k'.text] ++ b)) : ∃ c ∈ exchangeable, k.text ∈ c ∧ k'.text ∈ c := by
  obtain ⟨p, q, p', q', hd, hd', b', t, hA, rfl, hm, hm', hw, hw', hs, hs', hp, hq⟩ :=
    change_at (has_flat (y := []) (h := .w k) rfl) (has_flat (y := []) (h := .w k') rfl) h1 h2
  have hd := kw_hd (kws_name k hk) hw
  have hd' := kw_hd (kws_name k' hk') hw'
  subst hd hd'
  have hl := List.all_eq_true.1 (inA_kwKw _ _ hA) _ hm
  simp only [hk, decide_true, Bool.not_true, Bool.false_or] at hl
  have hl := List.all_eq_true.1 hl _ hm'
  simp only [hk', hne, decide_true, decide_false, Bool.not_true, Bool.false_or, Bool.or_eq_true] at hl
  rcases hl with hl | hl
  · exact (apart_false inD_apart hl hs hs').elim
  obtain ⟨c, hc, h⟩ := List.any_eq_true.1 hl
  simp only [Bool.and_eq_true, decide_eq_true_eq] at h
  have : kwClasses.map (List.map Wd.text) = exchangeable := by decide
  exact ⟨c.map Wd.text, this ▸ List.mem_map_of_mem hc, List.mem_map_of_mem h.1, List.mem_map_of_mem h.2⟩

end Verif.Auto
