import Verif.Proof.Count

/-! # What a terminal does depends only on the characters that are counted -/

namespace Verif.Count
open Nom

variable {α β : Type}

/-- The same outcome on two texts, with at most `n` characters consumed. -/
def Agree (n : Nat) (i j : Str) : Res Char α → Res Char α → Prop
  | .ok r a, .ok r' a' => a = a' ∧ ∃ w, i = w ++ r ∧ j = w ++ r' ∧ w.length ≤ n
  | .err (.error _ k), .err (.error _ k') => k = k'
  | .err (.failure _ k), .err (.failure _ k') => k = k'
  | .err .incomplete, .err .incomplete => True
  | .diverge, .diverge => True
  | _, _ => False

/-- The result and the count depend only on the characters that are counted. -/
def Local (p : C α) : Prop := ∀ i j, j.take (p i).1 = i.take (p i).1 → (p j).1 = (p i).1 ∧ Agree (p i).1 i j (p i).2 (p j).2

theorem take_le {n m : Nat} {i j : Str} (h : n ≤ m) (h' : j.take m = i.take m) : j.take n = i.take n := by
  have := congrArg (List.take n) h'
  simpa [List.take_take, Nat.min_eq_left h] using this

theorem take_append {n m : Nat} {w i j : Str} (hw : w.length ≤ n) (h : (w ++ j).take (n + m) = (w ++ i).take (n + m)) : j.take m = i.take m := by
  have h1 := congrArg (List.drop w.length) h
  rw [List.drop_take, List.drop_take, List.drop_left, List.drop_left] at h1
  exact take_le (by omega) h1

/-- The outcomes that are not successes. -/
def NotOk : Res Char α → Prop
  | .ok _ _ => False
  | _ => True

theorem Agree.grow {n m : Nat} {i j : Str} {x y : Res Char α} (h : Agree n i j x y) (hn : n ≤ m) : Agree m i j x y := by
  rcases x with _ | (_ | _ | _) | _ <;> rcases y with _ | (_ | _ | _) | _ <;> simp only [Agree] at h ⊢ <;> try exact h
  obtain ⟨h1, w, h2, h3, h4⟩ := h
  exact ⟨h1, w, h2, h3, by omega⟩

theorem Agree.prefix {n m : Nat} {w i j : Str} {x y : Res Char α} (h : Agree m i j x y) (hw : w.length ≤ n) : Agree (n + m) (w ++ i) (w ++ j) x y := by
  rcases x with _ | (_ | _ | _) | _ <;> rcases y with _ | (_ | _ | _) | _ <;> simp only [Agree] at h ⊢ <;> try exact h
  obtain ⟨h1, u, rfl, rfl, h4⟩ := h
  exact ⟨h1, w ++ u, by simp, by simp, by simp; omega⟩

theorem Agree.cases {n : Nat} {i j : Str} {x y : Res Char α} (h : Agree n i j x y) :
    (∃ r r' a w, x = .ok r a ∧ y = .ok r' a ∧ i = w ++ r ∧ j = w ++ r' ∧ w.length ≤ n) ∨
    (∃ p p' k, x = .err (.error p k) ∧ y = .err (.error p' k)) ∨ (∃ p p' k, x = .err (.failure p k) ∧ y = .err (.failure p' k)) ∨
    (x = .err .incomplete ∧ y = .err .incomplete) ∨ (x = .diverge ∧ y = .diverge) := by
  rcases x with ⟨r, a⟩ | (_ | _ | _) | _ <;> rcases y with ⟨r', a'⟩ | (_ | _ | _) | _ <;> simp only [Agree] at h <;>
    first
    | (obtain ⟨rfl, w, h1, h2, h3⟩ := h; exact .inl ⟨_, _, _, w, rfl, rfl, h1, h2, h3⟩)
    | (subst h; exact .inr (.inl ⟨_, _, _, rfl, rfl⟩))
    | (subst h; exact .inr (.inr (.inl ⟨_, _, _, rfl, rfl⟩)))
    | exact .inr (.inr (.inr (.inl ⟨rfl, rfl⟩)))
    | exact .inr (.inr (.inr (.inr ⟨rfl, rfl⟩)))

namespace Local

theorem ret (a : α) : Local (Count.ret a) := fun i j _ => ⟨rfl, rfl, [], rfl, rfl, Nat.le_refl _⟩

theorem seq {p : C α} {f : α → C β} (hp : Local p) (hf : ∀ a, Local (f a)) : Local (Count.seq p f) := fun i j h => by
  have h0 : (p i).1 ≤ (Count.seq p f i).1 := by unfold Count.seq; split <;> simp
  obtain ⟨h1, h2⟩ := hp i j (take_le h0 h)
  rcases h2.cases with ⟨r, r', a, w, e, e', rfl, rfl, hw⟩ | ⟨_, _, k, e, e'⟩ | ⟨_, _, k, e, e'⟩ | ⟨e, e'⟩ | ⟨e, e'⟩
  · simp only [Count.seq, e, e'] at h ⊢
    obtain ⟨h3, h4⟩ := hf a r r' (take_append hw h)
    exact ⟨by rw [h1, h3], h4.prefix hw⟩
  all_goals
    simp only [Count.seq, e, e']
    exact ⟨h1, by simp [Agree]⟩

theorem map {p : C α} (f : α → β) (hp : Local p) : Local (Count.map f p) := hp.seq fun _ => .ret _

theorem orElse {p q : C α} (hp : Local p) (hq : Local q) : Local (Count.orElse p q) := fun i j h => by
  have h0 : (p i).1 ≤ (Count.orElse p q i).1 := by unfold Count.orElse; split <;> simp
  obtain ⟨h1, h2⟩ := hp i j (take_le h0 h)
  rcases h2.cases with ⟨r, r', a, w, e, e', h3, h4, hw⟩ | ⟨_, _, k, e, e'⟩ | ⟨_, _, k, e, e'⟩ | ⟨e, e'⟩ | ⟨e, e'⟩
  · simp only [Count.orElse, e, e']
    exact ⟨h1, rfl, w, h3, h4, hw⟩
  · simp only [Count.orElse, e, e'] at h ⊢
    obtain ⟨h3, h4⟩ := hq i j (take_le (by omega) h)
    exact ⟨by omega, h4.grow (by omega)⟩
  all_goals
    simp only [Count.orElse, e, e']
    exact ⟨h1, by simp [Agree]⟩

theorem altEnd : Local (Count.altEnd (α := α)) := fun _ _ _ => ⟨rfl, rfl⟩

theorem alt2 {p q : C α} (hp : Local p) (hq : Local q) : Local (Count.alt [p, q]) := hp.orElse (hq.orElse .altEnd)
theorem alt3 {p q r : C α} (hp : Local p) (hq : Local q) (hr : Local r) : Local (Count.alt [p, q, r]) := hp.orElse (hq.orElse (hr.orElse .altEnd))

theorem opt {p : C α} (hp : Local p) : Local (Count.opt p) := fun i j h => by
  have h0 : (p i).1 ≤ (Count.opt p i).1 := by unfold Count.opt; split <;> simp
  obtain ⟨h1, h2⟩ := hp i j (take_le h0 h)
  rcases h2.cases with ⟨r, r', a, w, e, e', h3, h4, hw⟩ | ⟨_, _, k, e, e'⟩ | ⟨_, _, k, e, e'⟩ | ⟨e, e'⟩ | ⟨e, e'⟩
  · simp only [Count.opt, e, e']
    exact ⟨h1, rfl, w, h3, h4, hw⟩
  · simp only [Count.opt, e, e']
    exact ⟨h1, rfl, [], rfl, rfl, Nat.zero_le _⟩
  all_goals
    simp only [Count.opt, e, e']
    exact ⟨h1, by simp [Agree]⟩

theorem recognize {p : C α} (hp : Local p) : Local (Count.recognize p) := fun i j h => by
  have h0 : (p i).1 ≤ (Count.recognize p i).1 := by unfold Count.recognize; split <;> simp
  obtain ⟨h1, h2⟩ := hp i j (take_le h0 h)
  rcases h2.cases with ⟨r, r', a, w, e, e', rfl, rfl, hw⟩ | ⟨_, _, k, e, e'⟩ | ⟨_, _, k, e, e'⟩ | ⟨e, e'⟩ | ⟨e, e'⟩
  · simp only [Count.recognize, e, e']
    exact ⟨h1, by simp, w, rfl, rfl, hw⟩
  all_goals
    simp only [Count.recognize, e, e']
    exact ⟨h1, by simp [Agree]⟩

theorem many0Loop {p : C α} (hp : Local p) (n m : Nat) (i j : Str) (hn : i.length < n) (hm : j.length < m)
    (h : j.take (Count.many0Loop p n i).1 = i.take (Count.many0Loop p n i).1) :
    (Count.many0Loop p m j).1 = (Count.many0Loop p n i).1 ∧
      Agree (Count.many0Loop p n i).1 i j (Count.many0Loop p n i).2 (Count.many0Loop p m j).2 := by
  induction n generalizing m i j with
  | zero => omega
  | succ n ih =>
    cases m with
    | zero => omega
    | succ m =>
      have h0 : (p i).1 ≤ (Count.many0Loop p (n + 1) i).1 := by
        unfold Count.many0Loop
        split
        · simp
        · simp
        · simp
        · split <;> simp
      obtain ⟨h1, h2⟩ := hp i j (take_le h0 h)
      rcases h2.cases with ⟨r, r', a, w, e, e', rfl, rfl, hw⟩ | ⟨_, _, k, e, e'⟩ | ⟨_, _, k, e, e'⟩ | ⟨e, e'⟩ | ⟨e, e'⟩
      · cases w with
        | nil =>
          simp only [List.nil_append] at e e' h1 ⊢
          simp only [Count.many0Loop, e, e', if_true]
          exact ⟨h1, rfl⟩
        | cons c w =>
          have n1 : r ≠ (c :: w) ++ r := fun h => by have := congrArg List.length h; simp at this; omega
          have n2 : r' ≠ (c :: w) ++ r' := fun h => by have := congrArg List.length h; simp at this; omega
          simp only [Count.many0Loop, e, e', if_neg n1, if_neg n2] at h ⊢
          simp only [List.length_append, List.length_cons] at hn hm
          obtain ⟨h3, h4⟩ := ih m r r' (by omega) (by omega) (take_append hw h)
          refine ⟨by rw [h1, h3], ?_⟩
          rcases h4.cases with ⟨q, q', b, u, f, f', rfl, rfl, hu⟩ | ⟨_, _, k, f, f'⟩ | ⟨_, _, k, f, f'⟩ | ⟨f, f'⟩ | ⟨f, f'⟩
          · rw [f, f']
            exact ⟨rfl, (c :: w) ++ u, by simp, by simp, by simp at hw ⊢; omega⟩
          all_goals
            rw [f, f']
            simp [consRes, Agree]
      · simp only [Count.many0Loop, e, e']
        exact ⟨h1, rfl, [], rfl, rfl, Nat.zero_le _⟩
      all_goals
        simp only [Count.many0Loop, e, e']
        exact ⟨h1, by simp [Agree]⟩

theorem many0 {p : C α} (hp : Local p) : Local (Count.many0 p) := fun i j h =>
  hp.many0Loop _ _ i j (Nat.lt_succ_self _) (Nat.lt_succ_self _) h

theorem takeWhile_same (f : Char → Bool) (i j : Str) (h : j.take ((i.takeWhile f).length + 1) = i.take ((i.takeWhile f).length + 1)) :
    j.takeWhile f = i.takeWhile f := by
  induction i generalizing j with
  | nil =>
    cases j with
    | nil => rfl
    | cons c j => simp at h
  | cons c i ih =>
    cases j with
    | nil => simp at h
    | cons d j =>
      simp only [List.take_succ_cons, List.cons.injEq] at h
      obtain ⟨rfl, h⟩ := h
      by_cases hc : f d = true
      · rw [List.takeWhile_cons_of_pos hc] at h ⊢
        rw [List.takeWhile_cons_of_pos hc, ih j h]
      · rw [List.takeWhile_cons_of_neg hc, List.takeWhile_cons_of_neg hc]

theorem takeWhile (f : Char → Bool) : Local (Count.takeWhile f) := fun i j h => by
  have h1 := takeWhile_same f i j h
  refine ⟨by simp only [Count.takeWhile, h1], ?_⟩
  simp only [Count.takeWhile, Nom.takeWhile, Agree]
  exact ⟨h1.symm, i.takeWhile f, (List.takeWhile_append_dropWhile).symm, by rw [← h1]; exact (List.takeWhile_append_dropWhile).symm, by omega⟩

theorem takeWhile1 (f : Char → Bool) : Local (Count.takeWhile1 f) := fun i j h => by
  have h1 := takeWhile_same f i j h
  refine ⟨by simp only [Count.takeWhile1, h1], ?_⟩
  simp only [Count.takeWhile1, Nom.takeWhile1, h1]
  cases h2 : i.takeWhile f with
  | nil => simp [Agree]
  | cons c w =>
    simp only [Agree]
    refine ⟨trivial, i.takeWhile f, (List.takeWhile_append_dropWhile).symm, by rw [← h1]; exact (List.takeWhile_append_dropWhile).symm, by rw [h2]; omega⟩

theorem char (c : Char) : Local (Count.char c) := fun i j h => by
  refine ⟨rfl, ?_⟩
  simp only [Count.char] at h ⊢
  cases i with
  | nil =>
    cases j with
    | nil => rfl
    | cons d j => simp at h
  | cons d i =>
    cases j with
    | nil => simp at h
    | cons d' j =>
      simp at h
      subst h
      simp only [Nom.char]
      split
      · exact ⟨rfl, [d'], rfl, rfl, Nat.le_refl 1⟩
      · rfl

theorem oneOf (cs : Str) : Local (Count.oneOf cs) := fun i j h => by
  refine ⟨rfl, ?_⟩
  simp only [Count.oneOf] at h ⊢
  cases i with
  | nil =>
    cases j with
    | nil => rfl
    | cons d j => simp at h
  | cons d i =>
    cases j with
    | nil => simp at h
    | cons d' j =>
      simp at h
      subst h
      simp only [Nom.oneOf]
      split
      · exact ⟨rfl, [d'], rfl, rfl, Nat.le_refl 1⟩
      · rfl

theorem compared_same (t i j : Str) (h : j.take (compared t i) = i.take (compared t i)) :
    compared t j = compared t i ∧ (t <+: j ↔ t <+: i) ∧ (t <+: i → compared t i = t.length) := by
  induction t generalizing i j with
  | nil => simp [compared]
  | cons a t ih =>
    cases i with
    | nil =>
      cases j with
      | nil => simp
      | cons d j => simp [compared] at h
    | cons b i =>
      cases j with
      | nil =>
        simp only [compared] at h
        split at h <;> simp at h
      | cons d j =>
        simp only [compared] at h ⊢
        by_cases e : a = b
        · rw [if_pos e] at h ⊢
          simp at h
          obtain ⟨rfl, h⟩ := h
          obtain ⟨h1, h2, h3⟩ := ih i j h
          rw [if_pos e, h1]
          simp only [List.cons_prefix_cons, List.length_cons]
          exact ⟨trivial, by rw [h2], fun h => by rw [h3 h.2]⟩
        · rw [if_neg e] at h ⊢
          simp at h
          subst h
          rw [if_neg e]
          simp [List.cons_prefix_cons, e]

theorem tag (t : Str) : Local (Count.tag t) := fun i j h => by
  obtain ⟨h1, h2, h3⟩ := compared_same t i j h
  refine ⟨h1, ?_⟩
  simp only [Count.tag]
  rcases tag_cases t i with ⟨r, rfl, e⟩ | ⟨h4, e⟩
  · obtain ⟨r', rfl⟩ := h2.2 (List.prefix_append _ _)
    rcases tag_cases t (t ++ r') with ⟨q, h5, e'⟩ | ⟨h5, -⟩
    · obtain rfl := List.append_cancel_left h5
      rw [e, e']
      exact ⟨rfl, t, rfl, rfl, by rw [h3 (List.prefix_append _ _)]; exact Nat.le_refl _⟩
    · exact (h5 (List.prefix_append _ _)).elim
  · rcases tag_cases t j with ⟨q, rfl, e'⟩ | ⟨h5, e'⟩
    · exact (h4 (h2.1 (List.prefix_append _ _))).elim
    · rw [e, e']; rfl

theorem identTag (t : Str) : Local (Count.identTag t) := fun i j h => by
  simp only [Count.identTag] at h ⊢
  obtain ⟨h1, h2, h3⟩ := compared_same t i j (take_le (Nat.le_succ _) h)
  refine ⟨by rw [h1], ?_⟩
  rcases tag_cases t i with ⟨r, rfl, e⟩ | ⟨h4, e⟩
  · obtain ⟨r', rfl⟩ := h2.2 (List.prefix_append _ _)
    have h6 := h3 (List.prefix_append _ _)
    rcases tag_cases t (t ++ r') with ⟨q, h5, e'⟩ | ⟨h5, -⟩
    · obtain rfl := List.append_cancel_left h5
      rw [h6] at h ⊢
      have h7 := take_append (Nat.le_refl _) h
      simp only [Verif.identTag, e, e']
      cases r with
      | nil =>
        cases r' with
        | nil => exact ⟨rfl, t, rfl, rfl, by omega⟩
        | cons => simp at h7
      | cons c r =>
        cases r' with
        | nil => simp at h7
        | cons c' r' =>
          simp at h7
          subst h7
          by_cases hc : isIdentByte c' = true
          · simp only [hc, if_true, Agree]
          · simp only [hc, Agree]
            exact ⟨rfl, t, rfl, rfl, by omega⟩
    · exact (h5 (List.prefix_append _ _)).elim
  · rcases tag_cases t j with ⟨q, rfl, e'⟩ | ⟨h5, e'⟩
    · exact (h4 (h2.1 (List.prefix_append _ _))).elim
    · simp only [Verif.identTag, e, e', Agree]

theorem searched_same (t i j : Str) (ht : t ≠ []) (h : j.take (searched t i) = i.take (searched t i)) : searched t j = searched t i ∧
    ((splitAtFirst t i = none ∧ splitAtFirst t j = none) ∨
     ∃ a b b', splitAtFirst t i = some (a, b) ∧ splitAtFirst t j = some (a, b') ∧ i = a ++ b ∧ j = a ++ b' ∧ a.length ≤ searched t i) := by
  have pos : ∀ i, 1 ≤ compared t i := fun i => by
    cases t with
    | nil => exact (ht rfl).elim
    | cons a t => cases i <;> simp only [compared] <;> first | omega | (split <;> omega)
  induction i generalizing j with
  | nil =>
    have h1 := pos []
    simp only [searched] at h
    have : j = [] := by
      cases j with
      | nil => rfl
      | cons c j =>
        obtain ⟨k, hk⟩ := Nat.exists_eq_add_of_le h1
        rw [hk, Nat.add_comm] at h
        simp at h
    subst this
    refine ⟨rfl, ?_⟩
    have h2 : splitAtFirst t [] = none := by
      cases t with
      | nil => exact (ht rfl).elim
      | cons => simp [splitAtFirst]
    exact .inl ⟨h2, h2⟩
  | cons c i ih =>
    have h1 := pos (c :: i)
    have h0 : compared t (c :: i) ≤ searched t (c :: i) := by simp only [searched]; omega
    obtain ⟨h2, h3, h4⟩ := compared_same t (c :: i) j (take_le h0 h)
    cases j with
    | nil =>
      have := take_le (Nat.le_trans h1 h0) h
      simp at this
    | cons d j =>
      have hd := take_le (Nat.le_trans h1 h0) h
      simp at hd
      subst hd
      simp only [searched, splitAtFirst] at h ⊢
      by_cases hp : t <+: d :: i
      · have hp' := h3.2 hp
        have b1 : t.isPrefixOf (d :: i) = true := by simpa using hp
        have b2 : t.isPrefixOf (d :: j) = true := by simpa using hp'
        rw [if_pos b1, if_pos b2, if_pos b1, if_pos b2]
        exact ⟨by rw [h2], .inr ⟨[], _, _, rfl, rfl, rfl, rfl, Nat.zero_le _⟩⟩
      · have hp' := fun h => hp (h3.1 h)
        have b1 : ¬ t.isPrefixOf (d :: i) = true := by simpa using hp
        have b2 : ¬ t.isPrefixOf (d :: j) = true := by simpa using hp'
        rw [if_neg b1] at h
        rw [if_neg b1, if_neg b2, if_neg b1, if_neg b2]
        have h5 : j.take (searched t i) = i.take (searched t i) := take_append (w := [d]) h1 h
        obtain ⟨h6, h7⟩ := ih j h5
        refine ⟨by rw [h2, h6], ?_⟩
        rcases h7 with ⟨e, e'⟩ | ⟨a, b, b', e, e', rfl, rfl, h8⟩
        · exact .inl ⟨by rw [e], by rw [e']⟩
        · exact .inr ⟨d :: a, b, b', by rw [e], by rw [e'], rfl, rfl, by simp; omega⟩

theorem takeUntil (t : Str) (ht : t ≠ []) : Local (Count.takeUntil t) := fun i j h => by
  obtain ⟨h1, h2⟩ := searched_same t i j ht h
  refine ⟨h1, ?_⟩
  simp only [Count.takeUntil, Nom.takeUntil]
  rcases h2 with ⟨e, e'⟩ | ⟨a, b, b', e, e', h3, h4, h5⟩
  · rw [e, e']; rfl
  · rw [e, e']; exact ⟨rfl, a, h3, h4, h5⟩

theorem lineComment : Local Count.lineComment := (tag _).seq fun _ => (takeUntil _ (by simp)).seq fun _ => (char _).seq fun _ => .ret _
theorem whitespace : Local Count.whitespace := (takeWhile1 _).map _
theorem blockComment : Local Count.blockComment := (tag _).seq fun _ => (takeUntil _ (by simp)).seq fun _ => (tag _).seq fun _ => .ret _
theorem sp : Local Count.sp := (alt3 lineComment whitespace blockComment).many0.recognize
theorem ws {p : C α} (hp : Local p) : Local (Count.ws p) := sp.seq fun _ => hp.seq fun _ => sp.seq fun _ => .ret _

theorem intDot : Local floatIntDot := (takeWhile1 _).seq fun _ => (char _).seq fun _ => (takeWhile _).seq fun _ => .ret _
theorem dotInt : Local floatDotInt := (takeWhile _).seq fun _ => (char _).seq fun _ => (takeWhile1 _).seq fun _ => .ret _
theorem exp : Local floatExp := (alt2 (char _) (char _)).seq fun _ => (alt2 (char _) (char _)).opt.seq fun _ => (takeWhile1 _).seq fun _ => .ret _

theorem leaf (l : Leaf α) : Local (Count.leaf α l) := by
  cases l with
  | punct p => exact (tag _).ws.map _
  | kw k => exact (identTag _).ws.map _
  | ident => exact ((char _).opt.seq fun _ => ((takeWhile1 _).seq fun _ => (takeWhile _).seq fun _ => .ret _).recognize.seq fun _ => .ret _).ws
  | dec => exact ((char _).opt.seq fun _ => (oneOf _).seq fun _ => (takeWhile _).seq fun _ => .ret _).recognize.ws
  | hex => exact ((char _).opt.seq fun _ => (char _).seq fun _ => (alt2 (char _) (char _)).seq fun _ => (takeWhile _).seq fun _ => .ret _).recognize.ws
  | oct => exact ((char _).opt.seq fun _ => (char _).seq fun _ => (takeWhile _).seq fun _ => .ret _).recognize.ws
  | float =>
    exact ((char _).opt.seq fun _ => (alt2 ((alt2 intDot dotInt).seq fun _ => exp.opt.seq fun _ => .ret _)
      ((takeWhile1 _).seq fun _ => exp.seq fun _ => .ret _)).seq fun _ => .ret _).recognize.ws
  | string => exact ((char _).seq fun _ => (takeWhile _).seq fun _ => (char _).seq fun _ => .ret _).ws

end Local
end Verif.Count
