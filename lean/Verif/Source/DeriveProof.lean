import Verif.Source.Derive
import Verif.Proof.Bytes

/-!
# Derived comparisons are orders

Values of a type are written as lists of numbers, such that the order of a dictionary on the lists is the order
on the values. The definitions serve the proof only, they model no code.
-/

namespace Verif.Source

/-! ## Words -/

theorem cmpNat_swap (a b : Nat) : cmpNat b a = (cmpNat a b).swap := by
  unfold cmpNat
  by_cases h : a < b
  · simp [h, Nat.lt_asymm h]
  · by_cases h' : b < a <;> simp [h, h']

theorem cmpNat_eq {a b : Nat} : cmpNat a b = .eq ↔ a = b := by
  unfold cmpNat
  by_cases h : a < b
  · simp [h]; omega
  · by_cases h' : b < a <;> simp [h, h'] <;> omega

theorem cmpNat_lt {a b : Nat} : cmpNat a b = .lt ↔ a < b := by
  unfold cmpNat
  by_cases h : a < b
  · simp [h]
  · by_cases h' : b < a <;> simp [h, h']

theorem dictionary_swap : ∀ as bs : List Nat, dictionary bs as = (dictionary as bs).swap
  | [], [] => rfl
  | [], _ :: _ => rfl
  | _ :: _, [] => rfl
  | a :: as, b :: bs => by simp only [dictionary, cmpNat_swap a b, dictionary_swap as bs, Ordering.swap_then]

theorem dictionary_eq : ∀ {as bs : List Nat}, dictionary as bs = .eq ↔ as = bs
  | [], [] => by simp [dictionary]
  | [], _ :: _ => by simp [dictionary]
  | _ :: _, [] => by simp [dictionary]
  | a :: as, b :: bs => by simp [dictionary, Ordering.then_eq_eq, cmpNat_eq, dictionary_eq]

theorem dictionary_trans : ∀ {as bs cs : List Nat}, dictionary as bs = .lt → dictionary bs cs = .lt → dictionary as cs = .lt
  | [], [], _, h, _ => by cases h
  | [], _ :: _, [], _, h => by cases h
  | [], _ :: _, _ :: _, _, _ => rfl
  | _ :: _, [], _, h, _ => by cases h
  | _ :: _, _ :: _, [], _, h => by cases h
  | a :: as, b :: bs, c :: cs, h, h' => by
    simp only [dictionary, Ordering.then_eq_lt, cmpNat_lt, cmpNat_eq] at h h' ⊢
    rcases h with h | ⟨rfl, h⟩
    · rcases h' with h' | ⟨rfl, h'⟩
      · exact .inl (by omega)
      · exact .inl h
    · rcases h' with h' | ⟨rfl, h'⟩
      · exact .inl h'
      · exact .inr ⟨rfl, dictionary_trans h h'⟩

/-! ## Values as words -/

def strWord (bs : List Nat) : List Nat := bs.map (· + 1) ++ [0]

mutual

def Val.word (is : List Item) : Val → List Nat
  | .unit => []
  | .bool a => [a.toNat]
  | .char a => [a.toNat]
  | .str a => strWord ((Spec.utf8 a).map (·.toNat))
  | .token _ => []
  | .pair a b => a.word is ++ b.word is
  | .triple a b c => a.word is ++ (b.word is ++ c.word is)
  | .none => [0]
  | .some a => 1 :: a.word is
  | .list as => wordList is as
  | .box a => a.word is
  | .struct _ as => wordFields is as
  | .newtype _ a => a.word is
  | .variant n x a =>
    match enumOf n is with
    | some vs => (place x vs).getD 0 :: a.word is
    | none => []

def wordList (is : List Item) : List Val → List Nat
  | [] => [0]
  | a :: as => 1 :: (a.word is ++ wordList is as)

def wordFields (is : List Item) : List (Str × Val) → List Nat
  | [] => []
  | (_, a) :: as => a.word is ++ wordFields is as

end

/-- The result `o` of the comparison is what the words say. -/
structure Compares (is : List Item) (a b : Val) (o : Ordering) : Prop where
  cmp : a.cmp is b = some o
  word : ∀ xs ys, dictionary (a.word is ++ xs) (b.word is ++ ys) = o.then (dictionary xs ys)
  eq : a.eq b = some (o == .eq)
  same : o = .eq → a = b

theorem then_assoc' (a b c : Ordering) : (a.then b).then c = a.then (b.then c) := by cases a <;> rfl

theorem andThen_some {x y : Option Ordering} {o o' : Ordering} (h : x = some o) (h' : y = some o') :
    andThen x y = some (o.then o') := by
  subst h h'; cases o <;> rfl

theorem andAlso_some {x y : Option Bool} {o o' : Ordering} (h : x = some (o == .eq)) (h' : y = some (o' == .eq)) :
    andAlso x y = some (o.then o' == .eq) := by
  subst h h'; cases o <;> rfl

theorem then_eq {o o' : Ordering} (h : o.then o' = .eq) : o = .eq ∧ o' = .eq := by
  cases o <;> simp [Ordering.then] at h ⊢; exact h

theorem strWord_word : ∀ (as bs xs ys : List Nat), dictionary (strWord as ++ xs) (strWord bs ++ ys) =
    (dictionary as bs).then (dictionary xs ys)
  | [], [], _, _ => by simp [strWord, dictionary, cmpNat]
  | [], _ :: _, _, _ => by simp [strWord, dictionary, cmpNat]
  | _ :: _, [], _, _ => by simp [strWord, dictionary, cmpNat]
  | a :: as, b :: bs, xs, ys => by
    have := strWord_word as bs xs ys
    simp only [strWord] at this
    have e : cmpNat (a + 1) (b + 1) = cmpNat a b := by simp [cmpNat]
    simp only [strWord, dictionary, List.map_cons, List.cons_append, this, e, then_assoc']

theorem utf8_nat_inj {a b : Str} (h : (Spec.utf8 a).map (·.toNat) = (Spec.utf8 b).map (·.toNat)) : Spec.utf8 a = Spec.utf8 b :=
  List.map_inj_right (fun _ _ h => UInt8.toNat_inj.mp h) |>.mp h

theorem Compares.str (is : List Item) (a b : Str) : ∃ o, Compares is (.str a) (.str b) o := by
  refine ⟨_, by rw [Val.cmp], fun xs ys => by rw [Val.word, Val.word, strWord_word], ?_, fun h => ?_⟩
  · rw [Val.eq]
    refine congrArg some ?_
    rw [Bool.eq_iff_iff, beq_iff_eq, beq_iff_eq, dictionary_eq]
    exact ⟨fun h => by rw [h], utf8_nat_inj⟩
  · rw [Byte.utf8_inj (utf8_nat_inj (dictionary_eq.mp h))]

theorem Compares.list {is : List Item} : ∀ {as bs : List Val}, (∀ a ∈ as, ∀ b ∈ bs, ∃ o, Compares is a b o) →
    ∃ o, Compares is (.list as) (.list bs) o
  | [], [], _ => ⟨.eq, by rw [Val.cmp, cmpList], by simp [Val.word, wordList, dictionary, cmpNat], by rw [Val.eq, eqList]; rfl, fun _ => rfl⟩
  | [], _ :: _, _ => ⟨.lt, by rw [Val.cmp, cmpList], by simp [Val.word, wordList, dictionary, cmpNat], by rw [Val.eq, eqList]; rfl, nofun⟩
  | _ :: _, [], _ => ⟨.gt, by rw [Val.cmp, cmpList], by simp [Val.word, wordList, dictionary, cmpNat], by rw [Val.eq, eqList]; rfl, nofun⟩
  | a :: as, b :: bs, h => by
    obtain ⟨o, ho⟩ := h a (by simp) b (by simp)
    obtain ⟨o', ho'⟩ := Compares.list (is := is) (as := as) (bs := bs) fun a ha b hb => h a (by simp [ha]) b (by simp [hb])
    refine ⟨o.then o', ?_, fun xs ys => ?_, ?_, fun e => ?_⟩
    · have := ho'.cmp; rw [Val.cmp] at this ⊢; rw [cmpList]; exact andThen_some ho.cmp this
    · have := ho'.word xs ys
      rw [Val.word, Val.word] at this ⊢
      rw [wordList, wordList, List.cons_append, List.cons_append, dictionary, List.append_assoc, List.append_assoc, ho.word, this, then_assoc']
      simp [cmpNat]
    · have := ho'.eq; rw [Val.eq] at this ⊢; rw [eqList]; exact andAlso_some ho.eq this
    · have e := then_eq e
      have h1 := ho.same e.1
      have h2 := ho'.same e.2
      cases h1; cases h2; rfl

theorem Compares.fields {is : List Item} {n : Str} : ∀ {as bs : List (Str × Val)}, as.map Prod.fst = bs.map Prod.fst →
    (∀ p ∈ as.zip bs, ∃ o, Compares is p.1.2 p.2.2 o) → ∃ o, Compares is (.struct n as) (.struct n bs) o
  | [], [], _, _ => ⟨.eq, by simp [Val.cmp, cmpFields], by simp [Val.word, wordFields], by simp [Val.eq, eqFields], fun _ => rfl⟩
  | [], _ :: _, h, _ => by simp at h
  | _ :: _, [], h, _ => by simp at h
  | (x, a) :: as, (y, b) :: bs, hn, h => by
    simp only [List.map_cons, List.cons.injEq] at hn
    obtain ⟨rfl, hn⟩ := hn
    obtain ⟨o, ho⟩ := h ((x, a), (x, b)) (by simp)
    obtain ⟨o', ho'⟩ := Compares.fields (is := is) (n := n) hn fun p hp => h p (by simp [hp])
    refine ⟨o.then o', ?_, fun xs ys => ?_, ?_, fun e => ?_⟩
    · have := ho'.cmp
      rw [Val.cmp, if_pos rfl] at this ⊢
      rw [cmpFields, if_pos rfl]
      exact andThen_some ho.cmp this
    · have := ho'.word xs ys
      rw [Val.word, Val.word] at this ⊢
      rw [wordFields, wordFields, List.append_assoc, List.append_assoc, ho.word, this, then_assoc']
    · have := ho'.eq
      rw [Val.eq, if_pos rfl] at this ⊢
      rw [eqFields, if_pos rfl]
      exact andAlso_some ho.eq this
    · have e := then_eq e
      have h1 := ho.same e.1
      have h2 := ho'.same e.2
      simp only at h1
      cases h1; cases h2; rfl

theorem Compares.pair {is : List Item} {a b a' b' : Val} {o o' : Ordering} (h : Compares is a a' o) (h' : Compares is b b' o') :
    Compares is (.pair a b) (.pair a' b') (o.then o') where
  cmp := by rw [Val.cmp]; exact andThen_some h.cmp h'.cmp
  word xs ys := by rw [Val.word, Val.word, List.append_assoc, List.append_assoc, h.word, h'.word, then_assoc']
  eq := by rw [Val.eq]; exact andAlso_some h.eq h'.eq
  same e := by rw [h.same (then_eq e).1, h'.same (then_eq e).2]

theorem Compares.triple {is : List Item} {a b c a' b' c' : Val} {o o' o'' : Ordering} (h : Compares is a a' o)
    (h' : Compares is b b' o') (h'' : Compares is c c' o'') :
    Compares is (.triple a b c) (.triple a' b' c') (o.then (o'.then o'')) where
  cmp := by rw [Val.cmp]; exact andThen_some h.cmp (andThen_some h'.cmp h''.cmp)
  word xs ys := by
    rw [Val.word, Val.word]
    simp only [List.append_assoc]
    rw [h.word, h'.word, h''.word, then_assoc', then_assoc']
  eq := by rw [Val.eq]; exact andAlso_some h.eq (andAlso_some h'.eq h''.eq)
  same e := by rw [h.same (then_eq e).1, h'.same (then_eq (then_eq e).2).1, h''.same (then_eq (then_eq e).2).2]

theorem place_some {x : Str} : ∀ {vs : List (Str × RTy)}, x ∈ vs.map Prod.fst → ∃ i, place x vs = some i
  | [], h => by simp at h
  | (y, t) :: vs, h => by
    by_cases e : y = x
    · exact ⟨0, by simp [place, e]⟩
    · obtain ⟨i, hi⟩ := place_some (vs := vs) (by simpa [Ne.symm e] using h)
      exact ⟨i + 1, by simp [place, e, hi]⟩

theorem place_inj {x y : Str} : ∀ {vs : List (Str × RTy)} {i : Nat}, place x vs = some i → place y vs = some i → x = y
  | [], _, h, _ => by cases h
  | (z, t) :: vs, i, h, h' => by
    simp only [place] at h h'
    split at h
    · rename_i e
      cases h
      split at h'
      · rename_i e'; exact e.symm.trans e'
      · simp at h'
    · split at h'
      · cases h'; simp at h
      · cases i with
        | zero => simp at h
        | succ i => exact place_inj (i := i) (by simpa using h) (by simpa using h')

/-- The type that an item declares. -/
def Item.typeName : Item → Option Str
  | .struct n _ _ | .enum n _ | .alias n _ | .tuple n _ _ | .unit n => some n
  | _ => none

/-- The types that are not declared in the crate. -/
def stdNames : List Str := [c!"()", c!"&str", c!"char", c!"bool", c!"Option", c!"Vec", c!"Box", c!"(,)", c!"(,,)"]

/-- No type is declared twice. -/
structure Unique (is : List Item) : Prop where
  uniq : ∀ it ∈ is, ∀ it' ∈ is, ∀ n, it.typeName = some n → it'.typeName = some n → it = it'
  std : ∀ it ∈ is, ∀ n ∈ stdNames, it.typeName ≠ some n
  variants : ∀ n vs, .enum n vs ∈ is → (vs.map Prod.fst).Nodup

theorem enumOf_mem {n : Str} : ∀ {is : List Item} {vs : List (Str × RTy)}, enumOf n is = some vs → .enum n vs ∈ is
  | [], _, h => by cases h
  | it :: is, vs, h => by
    unfold enumOf at h
    split at h
    · cases ‹_ = []›
    · rename_i e
      cases e
      split at h
      · cases h; simp_all
      · exact .tail _ (enumOf_mem h)
    · rename_i e
      cases e
      exact .tail _ (enumOf_mem h)

theorem enumOf_some {n : Str} {vs : List (Str × RTy)} : ∀ {is : List Item}, .enum n vs ∈ is → ∃ ws, enumOf n is = some ws
  | [], h => by cases h
  | it :: is, h => by
    unfold enumOf
    rcases List.mem_cons.mp h with rfl | h
    · exact ⟨vs, by simp⟩
    · obtain ⟨ws, hw⟩ := enumOf_some h
      split
      · cases ‹_ = []›
      · rename_i e
        cases e
        split
        · exact ⟨_, rfl⟩
        · exact ⟨ws, hw⟩
      · rename_i e
        cases e
        exact ⟨ws, hw⟩

theorem Unique.enumOf {is : List Item} (h : Unique is) {n : Str} {vs : List (Str × RTy)} (he : .enum n vs ∈ is) :
    enumOf n is = some vs := by
  obtain ⟨ws, hw⟩ := enumOf_some he
  cases h.uniq _ he _ (enumOf_mem hw) n rfl rfl
  exact hw

theorem Compares.variant {is : List Item} (hu : Unique is) {n x y : Str} {vs : List (Str × RTy)} (he : .enum n vs ∈ is)
    {t u : RTy} (hx : (x, t) ∈ vs) (hy : (y, u) ∈ vs) {a b : Val} (h : t = u → ∃ o, Compares is a b o) :
    ∃ o, Compares is (.variant n x a) (.variant n y b) o := by
  have hv := hu.enumOf he
  obtain ⟨i, hi⟩ := place_some (List.mem_map_of_mem (f := Prod.fst) hx)
  obtain ⟨j, hj⟩ := place_some (List.mem_map_of_mem (f := Prod.fst) hy)
  simp only at hi hj
  by_cases e : i = j
  · subst e
    have exy := place_inj hi hj
    subst exy
    have etu : t = u := by
      have hn := hu.variants n vs he
      clear hi hj hv he h
      induction vs with
      | nil => cases hx
      | cons v vs ih =>
        obtain ⟨z, w⟩ := v
        simp only [List.map_cons, List.nodup_cons] at hn
        rcases List.mem_cons.mp hx with e | hx'
        · rcases List.mem_cons.mp hy with e' | hy'
          · cases e; cases e'; rfl
          · cases e; exact absurd (List.mem_map.mpr ⟨_, hy', rfl⟩) hn.1
        · rcases List.mem_cons.mp hy with e' | hy'
          · cases e'; exact absurd (List.mem_map.mpr ⟨_, hx', rfl⟩) hn.1
          · exact ih hx' hy' hn.2
    obtain ⟨o, ho⟩ := h etu
    refine ⟨o, ?_, fun xs ys => ?_, ?_, fun e => by rw [ho.same e]⟩
    · rw [Val.cmp]; simp [hv, hi, ho.cmp]
    · rw [Val.word, Val.word]; simp [hv, hi, dictionary, cmpNat, ho.word]
    · rw [Val.eq]; simp [ho.eq]
  · have exy : x ≠ y := by
      rintro rfl
      exact e (by simpa [hi] using hj)
    have e' : cmpNat i j ≠ .eq := fun h => e (cmpNat_eq.mp h)
    refine ⟨cmpNat i j, ?_, fun xs ys => ?_, ?_, fun h => absurd h e'⟩
    · rw [Val.cmp]; simp [hv, hi, hj, e]
    · rw [Val.word, Val.word]
      simp only [hv, hi, hj, Option.getD_some, List.cons_append, dictionary]
      cases h : cmpNat i j
      · rfl
      · exact absurd h e'
      · rfl
    · rw [Val.eq]
      simp [exy, e']

theorem compares {is : List Item} (hu : Unique is) {T : RTy} {a : Val} (ha : HasType is T a) : ∀ {b : Val}, HasType is T b →
    ∃ o, Compares is a b o := by
  have no {it : Item} {n : Str} {P : Prop} (h : it ∈ is) (e : it.typeName = some n) (hn : n ∈ stdNames) : P :=
    absurd e (hu.std it h n hn)
  have ne {it it' : Item} {n : Str} (h : it ∈ is) (h' : it' ∈ is) (e : it.typeName = some n) (e' : it'.typeName = some n) : it = it' :=
    hu.uniq it h it' h' n e e'
  induction ha with
  | unit =>
    intro b hb
    cases hb with
    | unit => exact ⟨.eq, by rw [Val.cmp], by simp [Val.word], by rw [Val.eq]; rfl, fun _ => rfl⟩
    | token h => exact no h rfl (by decide)
    | newtype h => exact no h rfl (by decide)
    | struct h => exact no h rfl (by simp [RTy.name, stdNames])
    | variant h => exact no h rfl (by decide)
    | alias h => exact no h rfl (by decide)
  | str a =>
    intro b hb
    cases hb with
    | str b => exact Compares.str is a b
    | token h => exact no h rfl (by decide)
    | newtype h => exact no h rfl (by decide)
    | struct h => exact no h rfl (by simp [RTy.name, stdNames])
    | variant h => exact no h rfl (by decide)
    | alias h => exact no h rfl (by decide)
  | char a =>
    intro b hb
    cases hb with
    | char b =>
      refine ⟨cmpNat a.toNat b.toNat, by rw [Val.cmp], fun xs ys => by rw [Val.word, Val.word]; rfl, ?_, fun h => ?_⟩
      · rw [Val.eq]
        refine congrArg some ?_
        rw [Bool.eq_iff_iff, beq_iff_eq, beq_iff_eq, cmpNat_eq, Char.toNat_inj]
      · rw [Char.toNat_inj.mp (cmpNat_eq.mp h)]
    | token h => exact no h rfl (by decide)
    | newtype h => exact no h rfl (by decide)
    | struct h => exact no h rfl (by simp [RTy.name, stdNames])
    | variant h => exact no h rfl (by decide)
    | alias h => exact no h rfl (by decide)
  | bool a =>
    intro b hb
    cases hb with
    | bool b =>
      refine ⟨cmpNat a.toNat b.toNat, by rw [Val.cmp], fun xs ys => by rw [Val.word, Val.word]; rfl, ?_, fun h => ?_⟩
      · rw [Val.eq]
        cases a <;> cases b <;> rfl
      · cases a <;> cases b <;> simp [cmpNat] at h ⊢
    | token h => exact no h rfl (by decide)
    | newtype h => exact no h rfl (by decide)
    | struct h => exact no h rfl (by simp [RTy.name, stdNames])
    | variant h => exact no h rfl (by decide)
    | alias h => exact no h rfl (by decide)
  | none =>
    intro b hb
    cases hb with
    | none => exact ⟨.eq, by rw [Val.cmp], by simp [Val.word, dictionary, cmpNat], by rw [Val.eq]; rfl, fun _ => rfl⟩
    | some h => exact ⟨.lt, by rw [Val.cmp], by simp [Val.word, dictionary, cmpNat], by rw [Val.eq]; rfl, nofun⟩
    | struct h => exact no h rfl (by simp [RTy.name, stdNames])
  | some _ ih =>
    intro b hb
    cases hb with
    | none => exact ⟨.gt, by rw [Val.cmp], by simp [Val.word, dictionary, cmpNat], by rw [Val.eq]; rfl, nofun⟩
    | some h =>
      obtain ⟨o, ho⟩ := ih h
      exact ⟨o, by rw [Val.cmp]; exact ho.cmp, by simp [Val.word, dictionary, cmpNat, ho.word], by rw [Val.eq]; exact ho.eq,
        fun e => by rw [ho.same e]⟩
    | struct h => exact no h rfl (by simp [RTy.name, stdNames])
  | list _ ih =>
    intro b hb
    cases hb with
    | list h => exact Compares.list fun a ha b hb => ih a ha (h b hb)
    | struct h => exact no h rfl (by simp [RTy.name, stdNames])
  | box _ ih =>
    intro b hb
    cases hb with
    | box h =>
      obtain ⟨o, ho⟩ := ih h
      exact ⟨o, by rw [Val.cmp]; exact ho.cmp, by simp [Val.word, ho.word], by rw [Val.eq]; exact ho.eq, fun e => by rw [ho.same e]⟩
    | struct h => exact no h rfl (by simp [RTy.name, stdNames])
  | pair _ _ ih1 ih2 =>
    intro b hb
    cases hb with
    | pair h1 h2 =>
      obtain ⟨o, ho⟩ := ih1 h1
      obtain ⟨o', ho'⟩ := ih2 h2
      exact ⟨_, ho.pair ho'⟩
    | struct h => exact no h rfl (by simp [RTy.name, stdNames])
  | triple _ _ _ ih1 ih2 ih3 =>
    intro b hb
    cases hb with
    | triple h1 h2 h3 =>
      obtain ⟨o, ho⟩ := ih1 h1
      obtain ⟨o', ho'⟩ := ih2 h2
      obtain ⟨o'', ho''⟩ := ih3 h3
      exact ⟨_, ho.triple ho' ho''⟩
    | struct h => exact no h rfl (by simp [RTy.name, stdNames])
  | token h =>
    intro b hb
    cases hb with
    | token h' => exact ⟨.eq, by simp [Val.cmp], by simp [Val.word], by simp [Val.eq], fun _ => rfl⟩
    | newtype h' => cases ne h h' rfl rfl
    | struct h' => cases ne h h' rfl rfl
    | variant h' => cases ne h h' rfl rfl
    | alias h' => cases ne h h' rfl rfl
    | _ => exact no h rfl (by decide)
  | newtype h _ ih =>
    intro b hb
    cases hb with
    | newtype h' hb =>
      cases ne h h' rfl rfl
      obtain ⟨o, ho⟩ := ih hb
      exact ⟨o, by rw [Val.cmp, if_pos rfl]; exact ho.cmp, by simp [Val.word, ho.word], by rw [Val.eq, if_pos rfl]; exact ho.eq,
        fun e => by rw [ho.same e]⟩
    | token h' => cases ne h h' rfl rfl
    | struct h' => cases ne h h' rfl rfl
    | variant h' => cases ne h h' rfl rfl
    | alias h' => cases ne h h' rfl rfl
    | _ => exact no h rfl (by decide)
  | @struct T ps fs vs h hl hn hv ih =>
    intro b hb
    cases hb with
    | @struct _ ps' fs' vs' h' hl' hn' hv' =>
      cases ne h h' rfl rfl
      refine Compares.fields (hn.trans hn'.symm) fun p hp => ?_
      obtain ⟨i, hi, rfl⟩ := List.mem_iff_getElem.mp hp
      simp only [List.length_zip, List.getElem_zip] at hi ⊢
      have e : fs.length = vs.length := by simpa using (congrArg List.length hn).symm
      have e' : fs.length = vs'.length := by simpa using (congrArg List.length hn').symm
      have h1 : (fs[i]'(by omega), vs[i]'(by omega)) ∈ fs.zip vs :=
        List.mem_iff_getElem.mpr ⟨i, by simp; omega, by simp⟩
      have h2 : (fs[i]'(by omega), vs'[i]'(by omega)) ∈ fs.zip vs' :=
        List.mem_iff_getElem.mpr ⟨i, by simp; omega, by simp⟩
      exact ih _ h1 (hv' _ h2)
    | token h' => cases ne h h' rfl rfl
    | newtype h' => cases ne h h' rfl rfl
    | variant h' => cases ne h h' rfl rfl
    | alias h' => cases ne h h' rfl rfl
    | _ => exact no h rfl (by simp [RTy.name, stdNames])
  | variant h hx _ ih =>
    intro b hb
    cases hb with
    | variant h' hy hb =>
      cases ne h h' rfl rfl
      exact Compares.variant hu h hx hy fun e => ih (e ▸ hb)
    | token h' => cases ne h h' rfl rfl
    | newtype h' => cases ne h h' rfl rfl
    | struct h' => cases ne h h' rfl rfl
    | alias h' => cases ne h h' rfl rfl
    | _ => exact no h rfl (by decide)
  | alias h _ ih =>
    intro b hb
    cases hb with
    | alias h' hb =>
      cases ne h h' rfl rfl
      exact ih hb
    | token h' => cases ne h h' rfl rfl
    | newtype h' => cases ne h h' rfl rfl
    | struct h' => cases ne h h' rfl rfl
    | variant h' => cases ne h h' rfl rfl
    | _ => exact no h rfl (by decide)

end Verif.Source
