import Verif.Source.Debug
import Verif.Source.DeriveProof
import Verif.Source.TypeCheck

/-!
# Values of a type that are printed or hashed alike are the same

The definitions serve the proof only, they model no code.
-/

namespace Verif.Source.Printed
open Spec

/-! ## Two values of one type -/

/-- The values can be of one type. -/
inductive Twins (is : List Item) : Val → Val → Prop where
  | unit : Twins is .unit .unit
  | str (s t : Str) : Twins is (.str s) (.str t)
  | char (c d : Char) : Twins is (.char c) (.char d)
  | bool (b c : Bool) : Twins is (.bool b) (.bool c)
  | none : Twins is .none .none
  | noneSome {a : Val} : Twins is .none (.some a)
  | someNone {a : Val} : Twins is (.some a) .none
  | some {a b : Val} (h : Twins is a b) : Twins is (.some a) (.some b)
  | list {as bs : List Val} (ha : ∀ a ∈ as, ∃ T, HasType is T a) (hb : ∀ b ∈ bs, ∃ T, HasType is T b)
      (h : ∀ a ∈ as, ∀ b ∈ bs, Twins is a b) : Twins is (.list as) (.list bs)
  | box {a b : Val} (h : Twins is a b) : Twins is (.box a) (.box b)
  | pair {a b a' b' : Val} (h : Twins is a b) (h' : Twins is a' b') : Twins is (.pair a a') (.pair b b')
  | triple {a b a' b' a'' b'' : Val} (h : Twins is a b) (h' : Twins is a' b') (h'' : Twins is a'' b'') :
      Twins is (.triple a a' a'') (.triple b b' b'')
  | token {n : Str} : Twins is (.token n) (.token n)
  | newtype {n : Str} {a b : Val} (h : Twins is a b) : Twins is (.newtype n a) (.newtype n b)
  | struct {n : Str} {as bs : List (Str × Val)} (hn : as.map Prod.fst = bs.map Prod.fst)
      (h : ∀ p ∈ as.zip bs, Twins is p.1.2 p.2.2) : Twins is (.struct n as) (.struct n bs)
  | variant {n x y : Str} {vs : List (Str × RTy)} {a b : Val} (he : .enum n vs ∈ is) (hx : x ∈ vs.map Prod.fst)
      (hy : y ∈ vs.map Prod.fst) (h : x = y → Twins is a b) : Twins is (.variant n x a) (.variant n y b)

theorem type_of_variant {x : Str} {t u : RTy} : ∀ {vs : List (Str × RTy)}, (vs.map Prod.fst).Nodup → (x, t) ∈ vs → (x, u) ∈ vs →
    t = u
  | [], _, h, _ => by cases h
  | (z, w) :: vs, hn, hx, hy => by
    simp only [List.map_cons, List.nodup_cons] at hn
    rcases List.mem_cons.mp hx with e | hx'
    · rcases List.mem_cons.mp hy with e' | hy'
      · cases e; cases e'; rfl
      · cases e; exact absurd (List.mem_map.mpr ⟨_, hy', rfl⟩) hn.1
    · rcases List.mem_cons.mp hy with e' | hy'
      · cases e'; exact absurd (List.mem_map.mpr ⟨_, hx', rfl⟩) hn.1
      · exact type_of_variant hn.2 hx' hy'

theorem twins {is : List Item} (hu : Unique is) {T : RTy} {a : Val} (ha : HasType is T a) : ∀ {b : Val}, HasType is T b →
    Twins is a b := by
  have no {it : Item} {n : Str} {P : Prop} (h : it ∈ is) (e : it.typeName = some n) (hn : n ∈ stdNames) : P :=
    absurd e (hu.std it h n hn)
  have ne {it it' : Item} {n : Str} (h : it ∈ is) (h' : it' ∈ is) (e : it.typeName = some n) (e' : it'.typeName = some n) : it = it' :=
    hu.uniq it h it' h' n e e'
  induction ha with
  | unit =>
    intro b hb
    cases hb with
    | unit => exact .unit
    | token h => exact no h rfl (by decide)
    | newtype h => exact no h rfl (by decide)
    | struct h => exact no h rfl (by simp [RTy.name, stdNames])
    | variant h => exact no h rfl (by decide)
    | alias h => exact no h rfl (by decide)
  | str a =>
    intro b hb
    cases hb with
    | str b => exact .str a b
    | token h => exact no h rfl (by decide)
    | newtype h => exact no h rfl (by decide)
    | struct h => exact no h rfl (by simp [RTy.name, stdNames])
    | variant h => exact no h rfl (by decide)
    | alias h => exact no h rfl (by decide)
  | char a =>
    intro b hb
    cases hb with
    | char b => exact .char a b
    | token h => exact no h rfl (by decide)
    | newtype h => exact no h rfl (by decide)
    | struct h => exact no h rfl (by simp [RTy.name, stdNames])
    | variant h => exact no h rfl (by decide)
    | alias h => exact no h rfl (by decide)
  | bool a =>
    intro b hb
    cases hb with
    | bool b => exact .bool a b
    | token h => exact no h rfl (by decide)
    | newtype h => exact no h rfl (by decide)
    | struct h => exact no h rfl (by simp [RTy.name, stdNames])
    | variant h => exact no h rfl (by decide)
    | alias h => exact no h rfl (by decide)
  | none =>
    intro b hb
    cases hb with
    | none => exact .none
    | some h => exact .noneSome
    | struct h => exact no h rfl (by simp [RTy.name, stdNames])
  | some _ ih =>
    intro b hb
    cases hb with
    | none => exact .someNone
    | some h => exact .some (ih h)
    | struct h => exact no h rfl (by simp [RTy.name, stdNames])
  | list ha ih =>
    intro b hb
    cases hb with
    | list h => exact .list (fun a h' => ⟨_, ha a h'⟩) (fun b h' => ⟨_, h b h'⟩) fun a ha b hb => ih a ha (h b hb)
    | struct h => exact no h rfl (by simp [RTy.name, stdNames])
  | box _ ih =>
    intro b hb
    cases hb with
    | box h => exact .box (ih h)
    | struct h => exact no h rfl (by simp [RTy.name, stdNames])
  | pair _ _ ih1 ih2 =>
    intro b hb
    cases hb with
    | pair h1 h2 => exact .pair (ih1 h1) (ih2 h2)
    | struct h => exact no h rfl (by simp [RTy.name, stdNames])
  | triple _ _ _ ih1 ih2 ih3 =>
    intro b hb
    cases hb with
    | triple h1 h2 h3 => exact .triple (ih1 h1) (ih2 h2) (ih3 h3)
    | struct h => exact no h rfl (by simp [RTy.name, stdNames])
  | token h =>
    intro b hb
    cases hb with
    | token h' => exact .token
    | newtype h' => cases ne h h' rfl rfl
    | struct h' => cases ne h h' rfl rfl
    | variant h' => cases ne h h' rfl rfl
    | alias h' => cases ne h h' rfl rfl
    | _ => exact no h rfl (by decide)
  | newtype h _ ih =>
    intro b hb
    cases hb with
    | newtype h' hb =>
      cases ne h h' rfl rfl
      exact .newtype (ih hb)
    | token h' => cases ne h h' rfl rfl
    | struct h' => cases ne h h' rfl rfl
    | variant h' => cases ne h h' rfl rfl
    | alias h' => cases ne h h' rfl rfl
    | _ => exact no h rfl (by decide)
  | @struct T ps fs vs h hl hn hv ih =>
    intro b hb
    cases hb with
    | @struct _ ps' fs' vs' h' hl' hn' hv' =>
      cases ne h h' rfl rfl
      refine .struct (hn.trans hn'.symm) fun p hp => ?_
      obtain ⟨i, hi, rfl⟩ := List.mem_iff_getElem.mp hp
      simp only [List.length_zip, List.getElem_zip] at hi ⊢
      have e : fs.length = vs.length := by simpa using (congrArg List.length hn).symm
      have e' : fs.length = vs'.length := by simpa using (congrArg List.length hn').symm
      have h1 : (fs[i]'(by omega), vs[i]'(by omega)) ∈ fs.zip vs :=
        List.mem_iff_getElem.mpr ⟨i, by simp; omega, by simp⟩
      have h2 : (fs[i]'(by omega), vs'[i]'(by omega)) ∈ fs.zip vs' :=
        List.mem_iff_getElem.mpr ⟨i, by simp; omega, by simp⟩
      exact ih _ h1 (hv' _ h2)
    | token h' => cases ne h h' rfl rfl
    | newtype h' => cases ne h h' rfl rfl
    | variant h' => cases ne h h' rfl rfl
    | alias h' => cases ne h h' rfl rfl
    | _ => exact no h rfl (by simp [RTy.name, stdNames])
  | variant he hx _ ih =>
    intro b hb
    cases hb with
    | variant he' hy hb =>
      cases ne he he' rfl rfl
      refine .variant he (List.mem_map_of_mem (f := Prod.fst) hx) (List.mem_map_of_mem (f := Prod.fst) hy) fun e => ?_
      subst e
      obtain rfl := type_of_variant (hu.variants _ _ he) hx hy
      exact ih hb
    | token h' => cases ne he h' rfl rfl
    | newtype h' => cases ne he h' rfl rfl
    | struct h' => cases ne he h' rfl rfl
    | alias h' => cases ne he h' rfl rfl
    | _ => exact no he rfl (by decide)
  | «alias» h _ ih =>
    intro b hb
    cases hb with
    | «alias» h' hb =>
      cases ne h h' rfl rfl
      exact ih hb
    | token h' => cases ne h h' rfl rfl
    | newtype h' => cases ne h h' rfl rfl
    | struct h' => cases ne h h' rfl rfl
    | variant h' => cases ne h h' rfl rfl
    | _ => exact no h rfl (by decide)

/-! ## Hashing -/

theorem byte_lt (s : Str) : ∀ b ∈ (utf8 s).map (·.toNat), b ≠ 255 := by
  intro b hb e
  obtain ⟨x, hx, rfl⟩ := List.mem_map.mp hb
  obtain ⟨c, -, hc⟩ := List.mem_flatMap.mp hx
  have hv : c.val.toNat < 1114112 := by
    have := c.valid
    simp only [UInt32.isValidChar, Nat.isValidChar] at this
    omega
  revert hc
  unfold String.utf8EncodeChar
  generalize c.val.toNat = v at hv
  simp only
  intro hc
  split at hc
  · simp only [List.mem_singleton] at hc
    subst hc
    simp at e
    omega
  split at hc
  · simp only [List.mem_cons, List.not_mem_nil, or_false] at hc
    rcases hc with rfl | rfl <;> simp at e <;> omega
  split at hc
  · simp only [List.mem_cons, List.not_mem_nil, or_false] at hc
    rcases hc with rfl | rfl | rfl <;> simp at e <;> omega
  · simp only [List.mem_cons, List.not_mem_nil, or_false] at hc
    rcases hc with rfl | rfl | rfl | rfl <;> simp at e <;> omega

theorem split_at {α : Type} {x : α} : ∀ {u v xs ys : List α}, x ∉ u → x ∉ v → u ++ x :: xs = v ++ x :: ys → u = v ∧ xs = ys
  | [], [], _, _, _, _, h => by simpa using h
  | [], b :: v, _, _, _, h2, h => by
    simp only [List.nil_append, List.cons_append, List.cons.injEq] at h
    exact absurd (by simp [h.1]) h2
  | a :: u, [], _, _, h1, _, h => by
    simp only [List.nil_append, List.cons_append, List.cons.injEq] at h
    exact absurd (by simp [h.1]) h1
  | a :: u, b :: v, _, _, h1, h2, h => by
    simp only [List.cons_append, List.cons.injEq] at h
    simp only [List.mem_cons, not_or] at h1 h2
    obtain ⟨e, e'⟩ := split_at h1.2 h2.2 h.2
    exact ⟨by rw [h.1, e], e'⟩

/-- Whatever follows, the first value and what follows can be read off. -/
def Splits {σ : Type} (f : Val → List σ) (a b : Val) : Prop := ∀ xs ys, f a ++ xs = f b ++ ys → a = b ∧ xs = ys

theorem feed_list {is : List Item} : ∀ {as bs : List Val} {xs ys : List Nat}, (∀ a ∈ as, ∀ b ∈ bs, Splits (Val.feed is) a b) →
    as.length = bs.length → feedList is as ++ xs = feedList is bs ++ ys → as = bs ∧ xs = ys
  | [], [], _, _, _, _, h => ⟨rfl, by simpa [feedList] using h⟩
  | a :: as, b :: bs, xs, ys, hs, hl, h => by
    simp only [feedList, List.append_assoc] at h
    obtain ⟨rfl, k1⟩ := hs a (by simp) b (by simp) _ _ h
    obtain ⟨rfl, k2⟩ := feed_list (fun a ha b hb => hs a (List.mem_cons_of_mem _ ha) b (List.mem_cons_of_mem _ hb)) (by simpa using hl) k1
    exact ⟨rfl, k2⟩

theorem feed_fields {is : List Item} : ∀ {as bs : List (Str × Val)} {xs ys : List Nat},
    (∀ p ∈ as.zip bs, Splits (Val.feed is) p.1.2 p.2.2) → as.map Prod.fst = bs.map Prod.fst →
    feedFields is as ++ xs = feedFields is bs ++ ys → as = bs ∧ xs = ys
  | [], [], _, _, _, _, h => ⟨rfl, by simpa [feedFields] using h⟩
  | (x, a) :: as, (y, b) :: bs, xs, ys, hs, hl, h => by
    simp only [feedFields, List.append_assoc] at h
    simp only [List.map_cons, List.cons.injEq] at hl
    obtain ⟨e, k1⟩ := hs ((x, a), (y, b)) (by simp) _ _ h
    obtain rfl : a = b := e
    obtain ⟨rfl, k2⟩ := feed_fields (fun p hp => hs p (by simp [hp])) hl.2 k1
    obtain rfl := hl.1
    exact ⟨rfl, k2⟩
  | [], _ :: _, _, _, _, hl, _ => by simp at hl
  | _ :: _, [], _, _, _, hl, _ => by simp at hl

theorem feed_splits {is : List Item} (hu : Unique is) {a b : Val} (h : Twins is a b) : Splits (Val.feed is) a b := by
  induction h with
  | unit => intro xs ys h; exact ⟨rfl, by simpa [Val.feed] using h⟩
  | str s t =>
    intro xs ys h
    simp only [Val.feed, List.append_assoc, List.singleton_append] at h
    obtain ⟨h, h'⟩ := split_at (fun hm => byte_lt _ _ hm rfl) (fun hm => byte_lt _ _ hm rfl) h
    refine ⟨?_, h'⟩
    rw [Byte.utf8_inj (utf8_nat_inj h)]
  | char c d =>
    intro xs ys h
    simp only [Val.feed, List.cons_append, List.nil_append, List.cons.injEq] at h
    exact ⟨by rw [Char.toNat_inj.1 h.1], h.2⟩
  | bool b c =>
    intro xs ys h
    simp only [Val.feed, List.cons_append, List.nil_append, List.cons.injEq] at h
    refine ⟨?_, h.2⟩
    have := h.1
    revert this
    cases b <;> cases c <;> simp
  | none => intro xs ys h; exact ⟨rfl, by simpa [Val.feed] using h⟩
  | noneSome => intro xs ys h; simp [Val.feed] at h
  | someNone => intro xs ys h; simp [Val.feed] at h
  | some _ ih =>
    intro xs ys h
    simp only [Val.feed, List.cons_append, List.cons.injEq, true_and] at h
    obtain ⟨rfl, k1⟩ := ih _ _ h
    exact ⟨rfl, k1⟩
  | list _ _ _ ih =>
    intro xs ys h
    simp only [Val.feed, List.cons_append, List.cons.injEq] at h
    obtain ⟨rfl, k1⟩ := feed_list ih h.1 h.2
    exact ⟨rfl, k1⟩
  | box _ ih =>
    intro xs ys h
    simp only [Val.feed] at h
    obtain ⟨rfl, k1⟩ := ih _ _ h
    exact ⟨rfl, k1⟩
  | pair _ _ ih ih' =>
    intro xs ys h
    simp only [Val.feed, List.append_assoc] at h
    obtain ⟨rfl, k1⟩ := ih _ _ h
    obtain ⟨rfl, k2⟩ := ih' _ _ k1
    exact ⟨rfl, k2⟩
  | triple _ _ _ ih ih' ih'' =>
    intro xs ys h
    simp only [Val.feed, List.append_assoc] at h
    obtain ⟨rfl, k1⟩ := ih _ _ h
    obtain ⟨rfl, k2⟩ := ih' _ _ k1
    obtain ⟨rfl, k3⟩ := ih'' _ _ k2
    exact ⟨rfl, k3⟩
  | token => intro xs ys h; exact ⟨rfl, by simpa [Val.feed] using h⟩
  | newtype _ ih =>
    intro xs ys h
    simp only [Val.feed] at h
    obtain ⟨rfl, k1⟩ := ih _ _ h
    exact ⟨rfl, k1⟩
  | struct hn _ ih =>
    intro xs ys h
    simp only [Val.feed] at h
    obtain ⟨rfl, k1⟩ := feed_fields ih hn h
    exact ⟨rfl, k1⟩
  | @variant n x y vs a b he hx hy _ ih =>
    intro xs ys h
    obtain ⟨i, hi⟩ := place_some hx
    obtain ⟨j, hj⟩ := place_some hy
    simp only [Val.feed, hu.enumOf he, hi, hj, Option.getD_some, List.append_assoc] at h
    by_cases hl : vs.length = 1
    · simp only [hl, if_true, List.nil_append] at h
      obtain ⟨v, rfl⟩ := List.length_eq_one_iff.1 hl
      simp only [List.map_cons, List.map_nil, List.mem_singleton] at hx hy
      subst hx
      obtain ⟨rfl, k1⟩ := ih hy.symm _ _ h
      exact ⟨by rw [hy], k1⟩
    · simp only [hl, if_false, List.cons_append, List.nil_append, List.cons.injEq] at h
      obtain ⟨rfl, k1⟩ := h
      obtain rfl := place_inj hi hj
      obtain ⟨rfl, k2⟩ := ih rfl _ _ k1
      exact ⟨rfl, k2⟩

/-! ## Printing -/

theorem hexDigit_inj : ∀ a < 16, ∀ b < 16, hexDigit a = hexDigit b → a = b := by decide

theorem hexDigit_ne : ∀ a < 16, hexDigit a ≠ '}' := by decide

theorem hex_ne (n : Nat) : '}' ∉ hex n := by
  induction n using Nat.strongRecOn with
  | ind n ih =>
    unfold hex
    split
    · rename_i h
      simpa using (hexDigit_ne n h).symm
    · simp only [List.mem_append, List.mem_singleton, not_or]
      exact ⟨ih _ (by omega), (hexDigit_ne _ (by omega)).symm⟩

theorem hex_length (n : Nat) : 0 < (hex n).length := by
  unfold hex
  split <;> simp

theorem hex_inj (n : Nat) : ∀ {m : Nat}, hex n = hex m → n = m := by
  induction n using Nat.strongRecOn with
  | ind n ih =>
    intro m h
    rw [hex, show hex m = if m < 16 then [hexDigit m] else hex (m / 16) ++ [hexDigit (m % 16)] from by rw [hex]] at h
    by_cases h1 : n < 16 <;> by_cases h2 : m < 16 <;> simp only [h1, h2, if_true, if_false] at h
    · exact hexDigit_inj n h1 m h2 (by simpa using h)
    · have h3 := hex_length (m / 16)
      have h4 := congrArg List.length h
      simp only [List.length_append, List.length_singleton] at h4
      omega
    · have h3 := hex_length (n / 16)
      have h4 := congrArg List.length h
      simp only [List.length_append, List.length_singleton] at h4
      omega
    · obtain ⟨h3, h4⟩ := List.append_inj' h rfl
      have h5 := ih _ (by omega) h3
      have h6 := hexDigit_inj (n % 16) (by omega) (m % 16) (by omega) (by simpa using h4)
      omega

/-- The character that a backslash and a letter stand for. -/
def dec (e : Char) : Char := if e = '0' then '\x00' else if e = 't' then '\t' else if e = 'r' then '\r' else if e = 'n' then '\n' else e

theorem escape_form {p : Char → Bool} {q : Char} (hq : q = '"' ∨ q = '\'') (c : Char) :
    (∃ e, escapeDebug p q c = ['\\', e] ∧ e ≠ 'u' ∧ e ≠ '\n' ∧ e ≠ '\r' ∧ c = dec e) ∨
    (escapeDebug p q c = [c] ∧ c ≠ '\\' ∧ c ≠ q ∧ c ≠ '\n' ∧ c ≠ '\r') ∨
    escapeDebug p q c = '\\' :: 'u' :: '{' :: (hex c.toNat ++ ['}']) := by
  unfold escapeDebug
  split
  · subst_vars; exact .inl ⟨'0', rfl, by decide⟩
  split
  · subst_vars; exact .inl ⟨'t', rfl, by decide⟩
  split
  · subst_vars; exact .inl ⟨'r', rfl, by decide⟩
  split
  · subst_vars; exact .inl ⟨'n', rfl, by decide⟩
  split
  · subst_vars
    rcases hq with rfl | rfl
    · exact .inl ⟨'"', rfl, by decide⟩
    · exact .inl ⟨'\'', rfl, by decide⟩
  split
  · subst_vars; exact .inl ⟨'\\', rfl, by decide⟩
  split
  · exact .inr (.inl ⟨rfl, by assumption, by assumption, by assumption, by assumption⟩)
  · exact .inr (.inr rfl)

theorem escape_splits {p : Char → Bool} {q : Char} (hq : q = '"' ∨ q = '\'') {c d : Char} {xs ys : Str}
    (h : escapeDebug p q c ++ xs = escapeDebug p q d ++ ys) : c = d ∧ xs = ys := by
  rcases escape_form (p := p) hq c with ⟨e, h1, h2, -, -, h3⟩ | ⟨h1, h2, -⟩ | h1 <;>
  rcases escape_form (p := p) hq d with ⟨e', k1, k2, -, -, k3⟩ | ⟨k1, k2, -⟩ | k1 <;>
  rw [h1, k1] at h <;> simp only [List.cons_append, List.nil_append, List.append_assoc, List.cons.injEq, true_and] at h
  · exact ⟨by rw [h3, k3, h.1], h.2⟩
  · exact absurd h.1.symm k2
  · exact absurd h.1 h2
  · exact absurd h.1 h2
  · exact h
  · exact absurd h.1 h2
  · exact absurd h.1.symm k2
  · exact absurd h.1.symm k2
  · obtain ⟨e1, e2⟩ := split_at (hex_ne _) (hex_ne _) h
    exact ⟨Char.toNat_inj.1 (hex_inj _ e1), e2⟩

theorem escape_head {p : Char → Bool} {q : Char} (hq : q = '"' ∨ q = '\'') (c : Char) :
    ∃ d r, escapeDebug p q c = d :: r ∧ d ≠ q := by
  rcases escape_form (p := p) hq c with ⟨e, h1, -⟩ | ⟨h1, -, h3, -⟩ | h1
  · exact ⟨_, _, h1, by rcases hq with rfl | rfl <;> decide⟩
  · exact ⟨_, _, h1, h3⟩
  · exact ⟨_, _, h1, by rcases hq with rfl | rfl <;> decide⟩

theorem quoted_splits {p : Char → Bool} : ∀ {s t xs ys : Str},
    s.flatMap (escapeDebug p '"') ++ '"' :: xs = t.flatMap (escapeDebug p '"') ++ '"' :: ys → s = t ∧ xs = ys
  | [], [], _, _, h => by simpa using h
  | [], d :: t, _, _, h => by
    obtain ⟨e, r, h1, h2⟩ := escape_head (p := p) (.inl rfl) d
    simp only [List.flatMap_nil, List.flatMap_cons, h1, List.nil_append, List.cons_append, List.append_assoc, List.cons.injEq] at h
    exact absurd h.1.symm h2
  | c :: s, [], _, _, h => by
    obtain ⟨e, r, h1, h2⟩ := escape_head (p := p) (.inl rfl) c
    simp only [List.flatMap_nil, List.flatMap_cons, h1, List.nil_append, List.cons_append, List.append_assoc, List.cons.injEq] at h
    exact absurd h.1 h2
  | c :: s, d :: t, _, _, h => by
    simp only [List.flatMap_cons, List.append_assoc] at h
    obtain ⟨rfl, k1⟩ := escape_splits (.inl rfl) h
    obtain ⟨rfl, k2⟩ := quoted_splits k1
    exact ⟨rfl, k2⟩

/-- Names of types and variants, as letters and digits. -/
def IsWord (n : Str) : Prop := n ≠ [] ∧ ∀ c ∈ n, c.isAlphanum = true

/-- The names of the types and of the variants are words. -/
def Worded (is : List Item) : Prop :=
  ∀ it ∈ is, (∀ n, it.typeName = some n → IsWord n) ∧ ∀ n vs, it = .enum n vs → ∀ x ∈ vs.map Prod.fst, IsWord x

/-- The printed value begins, and not with a closing bracket. -/
def Starts (s : Str) : Prop := ∃ c r, s = c :: r ∧ c ≠ ']'

theorem IsWord.starts {n : Str} (h : IsWord n) (r : Str) : Starts (n ++ r) := by
  obtain ⟨h1, h2⟩ := h
  cases n with
  | nil => exact absurd rfl h1
  | cons c n =>
    refine ⟨c, n ++ r, rfl, fun e => ?_⟩
    have := h2 c (by simp)
    rw [e] at this
    exact absurd this (by decide)

theorem IsWord.not_mem {n : Str} (h : IsWord n) : '(' ∉ n := fun hm => absurd (h.2 _ hm) (by decide)

theorem debug_starts {is : List Item} (hw : Worded is) (p : Char → Bool) {T : RTy} {v : Val} (h : HasType is T v) : Starts (v.debug p) := by
  induction h with
  | unit => exact ⟨_, _, rfl, by decide⟩
  | str => exact ⟨'"', _, by rw [Val.debug, List.cons_append], by decide⟩
  | char => exact ⟨'\'', _, by rw [Val.debug, List.cons_append], by decide⟩
  | bool a => 
    cases a
    · exact ⟨'f', _, by rw [Val.debug]; rfl, by decide⟩
    · exact ⟨'t', _, by rw [Val.debug]; rfl, by decide⟩
  | none => exact ⟨_, _, rfl, by decide⟩
  | some => exact ⟨'S', _, by rw [Val.debug]; rfl, by decide⟩
  | list => exact ⟨'[', _, by rw [Val.debug, List.cons_append], by decide⟩
  | box _ ih => rw [Val.debug]; exact ih
  | pair => exact ⟨'(', _, by simp [Val.debug]; rfl, by decide⟩
  | triple => exact ⟨'(', _, by simp [Val.debug]; rfl, by decide⟩
  | token h => rw [Val.debug]; simpa using ((hw _ h).1 _ rfl).starts []
  | newtype h => rw [Val.debug, List.append_assoc]; exact ((hw _ h).1 _ rfl).starts _
  | struct h => rw [Val.debug]; exact ((hw _ h).1 _ rfl).starts _
  | variant h hx => rw [Val.debug, List.append_assoc]; exact ((hw _ h).2 _ _ rfl _ (List.mem_map_of_mem (f := Prod.fst) hx)).starts _
  | «alias» _ _ ih => exact ih

theorem debug_rest {is : List Item} (hw : Worded is) {p : Char → Bool} : ∀ {as bs : List Val} {xs ys : Str},
    (∀ a ∈ as, ∀ b ∈ bs, Splits (Val.debug p) a b) →
    (if as.isEmpty then [] else c!", " ++ debugList p as) ++ ']' :: xs =
    (if bs.isEmpty then [] else c!", " ++ debugList p bs) ++ ']' :: ys → as = bs ∧ xs = ys
  | [], [], _, _, _, h => ⟨rfl, by simpa using h⟩
  | [], _ :: _, _, _, _, h => by simp at h
  | _ :: _, [], _, _, _, h => by simp at h
  | a :: as, b :: bs, xs, ys, hs, h => by
    simp only [List.isEmpty_cons, Bool.false_eq_true, if_false, debugList, List.append_assoc] at h
    obtain ⟨rfl, k1⟩ := hs a (by simp) b (by simp) _ _ (List.append_cancel_left h)
    obtain ⟨rfl, k2⟩ := debug_rest hw (fun a ha b hb => hs a (List.mem_cons_of_mem _ ha) b (List.mem_cons_of_mem _ hb)) k1
    exact ⟨rfl, k2⟩

theorem debug_list {is : List Item} (hw : Worded is) {p : Char → Bool} : ∀ {as bs : List Val} {xs ys : Str},
    (∀ a ∈ as, Starts (a.debug p)) → (∀ b ∈ bs, Starts (b.debug p)) →
    (∀ a ∈ as, ∀ b ∈ bs, Splits (Val.debug p) a b) →
    debugList p as ++ ']' :: xs = debugList p bs ++ ']' :: ys → as = bs ∧ xs = ys
  | [], [], _, _, _, _, _, h => ⟨rfl, by simpa [debugList] using h⟩
  | [], b :: _, _, _, _, hb, _, h => by
    obtain ⟨c, r, h1, h2⟩ := hb b (by simp)
    simp only [debugList, h1, List.nil_append, List.cons_append, List.cons.injEq] at h
    exact absurd h.1.symm h2
  | a :: _, [], _, _, ha, _, _, h => by
    obtain ⟨c, r, h1, h2⟩ := ha a (by simp)
    simp only [debugList, h1, List.nil_append, List.cons_append, List.cons.injEq] at h
    exact absurd h.1 h2
  | a :: as, b :: bs, xs, ys, _, _, hs, h => by
    simp only [debugList, List.append_assoc] at h
    obtain ⟨rfl, k1⟩ := hs a (by simp) b (by simp) _ _ h
    obtain ⟨rfl, k2⟩ := debug_rest hw (fun a ha b hb => hs a (List.mem_cons_of_mem _ ha) b (List.mem_cons_of_mem _ hb)) k1
    exact ⟨rfl, k2⟩

theorem debug_fields {p : Char → Bool} : ∀ {as bs : List (Str × Val)} {st xs ys : Str},
    (∀ q ∈ as.zip bs, Splits (Val.debug p) q.1.2 q.2.2) → as.map Prod.fst = bs.map Prod.fst →
    debugFields p st as ++ xs = debugFields p st bs ++ ys → as = bs ∧ xs = ys
  | [], [], _, _, _, _, _, h => ⟨rfl, List.append_cancel_left h⟩
  | (x, a) :: as, (y, b) :: bs, st, xs, ys, hs, hl, h => by
    simp only [List.map_cons, List.cons.injEq] at hl
    obtain ⟨rfl, hl⟩ := hl
    simp only [debugFields, List.append_assoc] at h
    obtain ⟨e, k1⟩ := hs ((x, a), (x, b)) (by simp) _ _ (List.append_cancel_left (List.append_cancel_left (List.append_cancel_left h)))
    obtain rfl : a = b := e
    obtain ⟨rfl, k2⟩ := debug_fields (fun p hp => hs p (by simp [hp])) hl k1
    exact ⟨rfl, k2⟩
  | [], _ :: _, _, _, _, _, hl, _ => by simp at hl
  | _ :: _, [], _, _, _, _, hl, _ => by simp at hl

theorem debug_splits {is : List Item} (hw : Worded is) (p : Char → Bool) {a b : Val} (h : Twins is a b) : Splits (Val.debug p) a b := by
  induction h with
  | unit => intro xs ys h; exact ⟨rfl, List.append_cancel_left h⟩
  | str s t =>
    intro xs ys h
    simp only [Val.debug, List.cons_append, List.append_assoc, List.nil_append, List.cons.injEq, true_and] at h
    obtain ⟨rfl, k⟩ := quoted_splits h
    exact ⟨rfl, k⟩
  | char c d =>
    intro xs ys h
    simp only [Val.debug, List.cons_append, List.append_assoc, List.nil_append, List.cons.injEq, true_and] at h
    obtain ⟨rfl, k⟩ := escape_splits (.inr rfl) h
    exact ⟨rfl, by simpa using k⟩
  | bool b c =>
    intro xs ys h
    revert h
    cases b <;> cases c <;> simp [Val.debug]
  | none => intro xs ys h; exact ⟨rfl, List.append_cancel_left h⟩
  | noneSome => intro xs ys h; simp [Val.debug] at h
  | someNone => intro xs ys h; simp [Val.debug] at h
  | some _ ih =>
    intro xs ys h
    simp only [Val.debug, List.append_assoc] at h
    obtain ⟨rfl, k⟩ := ih _ _ (List.append_cancel_left h)
    exact ⟨rfl, by simpa using k⟩
  | list ha hb _ ih =>
    intro xs ys h
    simp only [Val.debug, List.cons_append, List.append_assoc, List.nil_append, List.cons.injEq, true_and] at h
    obtain ⟨rfl, k⟩ := debug_list hw (fun a h => (ha a h).elim fun _ h => debug_starts hw p h)
      (fun a h => (hb a h).elim fun _ h => debug_starts hw p h) ih h
    exact ⟨rfl, k⟩
  | box _ ih =>
    intro xs ys h
    simp only [Val.debug] at h
    obtain ⟨rfl, k⟩ := ih _ _ h
    exact ⟨rfl, k⟩
  | pair _ _ ih ih' =>
    intro xs ys h
    simp only [Val.debug, List.cons_append, List.append_assoc, List.cons.injEq, true_and] at h
    obtain ⟨rfl, k1⟩ := ih _ _ h
    obtain ⟨rfl, k2⟩ := ih' _ _ (by simpa using k1)
    exact ⟨rfl, by simpa using k2⟩
  | triple _ _ _ ih ih' ih'' =>
    intro xs ys h
    simp only [Val.debug, List.cons_append, List.append_assoc, List.cons.injEq, true_and] at h
    obtain ⟨rfl, k1⟩ := ih _ _ h
    obtain ⟨rfl, k2⟩ := ih' _ _ (by simpa using k1)
    obtain ⟨rfl, k3⟩ := ih'' _ _ (by simpa using k2)
    exact ⟨rfl, by simpa using k3⟩
  | token => intro xs ys h; exact ⟨rfl, List.append_cancel_left h⟩
  | newtype _ ih =>
    intro xs ys h
    simp only [Val.debug, List.cons_append, List.append_assoc] at h
    have h := List.append_cancel_left h
    simp only [List.cons.injEq, true_and] at h
    obtain ⟨rfl, k⟩ := ih _ _ h
    exact ⟨rfl, by simpa using k⟩
  | struct hn _ ih =>
    intro xs ys h
    simp only [Val.debug, List.append_assoc] at h
    obtain ⟨rfl, k⟩ := debug_fields ih hn (List.append_cancel_left h)
    exact ⟨rfl, k⟩
  | variant he hx hy _ ih =>
    intro xs ys h
    simp only [Val.debug, List.cons_append, List.append_assoc] at h
    obtain ⟨rfl, k1⟩ := split_at ((hw _ he).2 _ _ rfl _ hx).not_mem ((hw _ he).2 _ _ rfl _ hy).not_mem h
    obtain ⟨rfl, k2⟩ := ih rfl _ _ k1
    exact ⟨rfl, by simpa using k2⟩

/-! ## Lines -/

/-- No character is one of these that end a line. -/
def OneLine (s : Str) : Prop := '\n' ∉ s ∧ '\r' ∉ s

theorem OneLine.append {s t : Str} (hs : OneLine s) (ht : OneLine t) : OneLine (s ++ t) := by
  simp [OneLine, hs.1, hs.2, ht.1, ht.2]

theorem OneLine.cons {c : Char} {s : Str} (h : c ≠ '\n' ∧ c ≠ '\r') (hs : OneLine s) : OneLine (c :: s) := by
  simp [OneLine, hs.1, hs.2, h.1.symm, h.2.symm]

theorem IsWord.oneLine {n : Str} (h : IsWord n) : OneLine n :=
  ⟨fun hm => absurd (h.2 _ hm) (by decide), fun hm => absurd (h.2 _ hm) (by decide)⟩

theorem hex_oneLine (n : Nat) : OneLine (hex n) := by
  have key : ∀ a < 16, hexDigit a ≠ '\n' ∧ hexDigit a ≠ '\r' := by decide
  induction n using Nat.strongRecOn with
  | ind n ih =>
    unfold hex
    split
    · rename_i h
      exact .cons (key n h) ⟨by simp, by simp⟩
    · exact (ih _ (by omega)).append (.cons (key _ (by omega)) ⟨by simp, by simp⟩)

theorem escape_oneLine {p : Char → Bool} {q : Char} (hq : q = '"' ∨ q = '\'') (c : Char) : OneLine (escapeDebug p q c) := by
  rcases escape_form (p := p) hq c with ⟨e, h1, -, h2, h3, -⟩ | ⟨h1, -, -, h2, h3⟩ | h1 <;> rw [h1]
  · exact .cons (by decide) (.cons ⟨h2, h3⟩ ⟨by simp, by simp⟩)
  · exact .cons ⟨h2, h3⟩ ⟨by simp, by simp⟩
  · exact .cons (by decide) (.cons (by decide) (.cons (by decide) ((hex_oneLine _).append ⟨by decide, by decide⟩)))

theorem debugList_oneLine {p : Char → Bool} : ∀ {as : List Val}, (∀ a ∈ as, OneLine (a.debug p)) → OneLine (debugList p as)
  | [], _ => ⟨by simp [debugList], by simp [debugList]⟩
  | a :: as, h => by
    rw [debugList]
    refine (h a (by simp)).append ?_
    split
    · exact ⟨by simp, by simp⟩
    · exact OneLine.append ⟨by decide, by decide⟩ (debugList_oneLine fun b hb => h b (List.mem_cons_of_mem _ hb))

theorem debugFields_oneLine {p : Char → Bool} : ∀ {as : List (Str × Val)} {st : Str}, OneLine st →
    (∀ a ∈ as, OneLine a.1 ∧ OneLine (a.2.debug p)) → OneLine (debugFields p st as)
  | [], st, _, _ => by
    rw [debugFields]
    split
    · exact ⟨by simp, by simp⟩
    · exact ⟨by decide, by decide⟩
  | (x, a) :: as, st, hs, h => by
    rw [debugFields]
    have h1 := h (x, a) (by simp)
    exact (((hs.append h1.1).append ⟨by decide, by decide⟩).append h1.2).append
      (debugFields_oneLine ⟨by decide, by decide⟩ fun b hb => h b (List.mem_cons_of_mem _ hb))

/-- The names of the fields have no line end. -/
def Fielded (is : List Item) : Prop := ∀ n ps fs, .struct n ps fs ∈ is → ∀ f ∈ fs, OneLine f.1

theorem debug_oneLine {is : List Item} (hw : Worded is) (hf : Fielded is) (p : Char → Bool) {T : RTy} {v : Val} (h : HasType is T v) :
    OneLine (v.debug p) := by
  induction h with
  | unit => rw [Val.debug]; exact ⟨by decide, by decide⟩
  | str s =>
    rw [Val.debug]
    refine .cons (by decide) (.append ?_ ⟨by decide, by decide⟩)
    constructor <;>
    · intro hm
      obtain ⟨c, -, hc⟩ := List.mem_flatMap.mp hm
      first | exact (escape_oneLine (.inl rfl) c).1 hc | exact (escape_oneLine (.inl rfl) c).2 hc
  | char c =>
    rw [Val.debug]
    exact .cons (by decide) ((escape_oneLine (.inr rfl) c).append ⟨by decide, by decide⟩)
  | bool a => cases a <;> exact ⟨by simp [Val.debug], by simp [Val.debug]⟩
  | none => rw [Val.debug]; exact ⟨by decide, by decide⟩
  | some _ ih => rw [Val.debug]; exact (OneLine.append ⟨by decide, by decide⟩ ih).append ⟨by decide, by decide⟩
  | list _ ih => rw [Val.debug]; exact .cons (by decide) ((debugList_oneLine ih).append ⟨by decide, by decide⟩)
  | box _ ih => rw [Val.debug]; exact ih
  | pair _ _ ih ih' =>
    rw [Val.debug]
    exact .cons (by decide) (((ih.append ⟨by decide, by decide⟩).append ih').append ⟨by decide, by decide⟩)
  | triple _ _ _ ih ih' ih'' =>
    rw [Val.debug]
    exact .cons (by decide) (((((ih.append ⟨by decide, by decide⟩).append ih').append ⟨by decide, by decide⟩).append ih'').append
      ⟨by decide, by decide⟩)
  | token h => rw [Val.debug]; exact ((hw _ h).1 _ rfl).oneLine
  | newtype h _ ih =>
    rw [Val.debug]
    exact (((hw _ h).1 _ rfl).oneLine.append (.cons (by decide) ih)).append ⟨by decide, by decide⟩
  | @struct T ps fs vs h hl hn hv ih =>
    rw [Val.debug]
    refine ((hw _ h).1 _ rfl).oneLine.append (debugFields_oneLine ⟨by decide, by decide⟩ fun a ha => ?_)
    obtain ⟨i, hi, rfl⟩ := List.mem_iff_getElem.mp ha
    have e : fs.length = vs.length := by simpa using (congrArg List.length hn).symm
    have h1 : (fs[i]'(by omega), vs[i]) ∈ fs.zip vs := List.mem_iff_getElem.mpr ⟨i, by simp; omega, by simp⟩
    refine ⟨?_, ih _ h1⟩
    have h2 : vs[i].1 = (fs[i]'(by omega)).1 := by
      have h3 := List.getElem_map Prod.fst (l := vs) (i := i) (h := by simpa using hi)
      have h4 := List.getElem_map Prod.fst (l := fs) (i := i) (h := by simp; omega)
      rw [← h3, ← h4]
      simp only [hn]
    rw [h2]
    exact hf _ _ _ h _ (List.getElem_mem _)
  | variant h hx _ ih =>
    rw [Val.debug]
    exact (((hw _ h).2 _ _ rfl _ (List.mem_map_of_mem (f := Prod.fst) hx)).oneLine.append (.cons (by decide) ih)).append
      ⟨by decide, by decide⟩
  | «alias» _ _ ih => exact ih

/-! ## The crate -/

/-- A test for words. -/
def wordTest (n : Str) : Bool := !n.isEmpty && n.all Char.isAlphanum

theorem wordTest_sound {n : Str} (h : wordTest n = true) : IsWord n := by
  simp only [wordTest, Bool.and_eq_true, Bool.not_eq_true', List.isEmpty_eq_false_iff, List.all_eq_true] at h
  exact h

/-- A test for the names of an item. -/
def namesTest (it : Item) : Bool :=
  (match it.typeName with
  | some n => wordTest n
  | none => true) &&
  match it with
  | .enum _ vs => vs.all fun v => wordTest v.1
  | .struct _ _ fs => fs.all fun f => !f.1.contains '\n' && !f.1.contains '\r'
  | _ => true

theorem namesTest_crate : (crateItems.all namesTest) = true := by decide +kernel

theorem worded : Worded crateItems := by
  intro it hit
  have := List.all_eq_true.mp namesTest_crate it hit
  simp only [namesTest, Bool.and_eq_true] at this
  refine ⟨fun n hn => ?_, fun n vs e x hx => ?_⟩
  · rw [hn] at this
    exact wordTest_sound this.1
  · subst e
    obtain ⟨v, hv, rfl⟩ := List.mem_map.mp hx
    exact wordTest_sound (List.all_eq_true.mp this.2 v hv)

theorem fielded : Fielded crateItems := by
  intro n ps fs h f hf
  have := List.all_eq_true.mp namesTest_crate _ h
  simp only [namesTest, Bool.and_eq_true] at this
  have := List.all_eq_true.mp this.2 f hf
  simpa [OneLine] using this

end Verif.Source.Printed
