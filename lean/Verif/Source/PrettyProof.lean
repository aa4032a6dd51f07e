import Verif.Source.Pretty
import Verif.Source.DebugProof

/-!
# `{:#?}` tells values apart

The text is written with the depth of nesting as a parameter, without `indent`. Then it is split like the one of `{:?}`.
-/

namespace Verif.Source.Printed
open Spec

/-- A line end, and the spaces before the next line -/
def nl (d : Nat) : Str := '\n' :: List.replicate (4 * d) ' '

theorem indent_append (b : Bool) (s t : Str) (hs : '\n' ∉ s) (hne : s ≠ []) :
    indent b (s ++ t) = (if b then c!"    " else []) ++ s ++ indent false t := by
  induction s generalizing b with
  | nil => exact absurd rfl hne
  | cons c s ih =>
    have hc : (c == '\n') = false := by
      simp only [List.mem_cons, not_or] at hs
      simpa using fun h => hs.1 h.symm
    have key : indent (c == '\n') (s ++ t) = s ++ indent false t := by
      rw [hc]
      by_cases h : s = []
      · subst h; simp
      · simpa using ih false (fun h' => hs (List.mem_cons_of_mem _ h')) h
    cases b <;> simp only [List.cons_append, indent, key, if_true, Bool.false_eq_true, if_false, List.nil_append, List.append_assoc]

theorem indent_line {s : Str} (t : Str) (hs : '\n' ∉ s) : indent false (s ++ t) = s ++ indent false t := by
  by_cases h : s = []
  · subst h; simp
  · simpa using indent_append false s t hs h

theorem indent_nl (d : Nat) {s : Str} (t : Str) (hs : '\n' ∉ s) (hne : s ≠ []) :
    indent false (nl d ++ (s ++ t)) = nl (d + 1) ++ (s ++ indent false t) := by
  have h : '\n' ∉ List.replicate (4 * d) ' ' ++ s := by
    simp only [List.mem_append, List.mem_replicate, not_or]
    exact ⟨fun h => absurd h.2 (by decide), hs⟩
  have hn : List.replicate (4 * d) ' ' ++ s ≠ [] := by simp [hne]
  have e : List.replicate (4 * (d + 1)) ' ' = c!"    " ++ List.replicate (4 * d) ' ' := by
    rw [show 4 * (d + 1) = 4 + 4 * d from by omega, ← List.replicate_append_replicate]; rfl
  have := indent_append true _ t h hn
  simp only [if_true] at this
  simp only [nl, List.cons_append, indent, beq_self_eq_true, ← List.append_assoc, e, this]

mutual

/-- What is printed at a depth of nesting -/
def prettyAt (p : Char → Bool) (d : Nat) : Val → Str
  | .unit => c!"()"
  | .bool a => if a then c!"true" else c!"false"
  | .char a => '\'' :: escapeDebug p '\'' a ++ ['\'']
  | .str a => '"' :: a.flatMap (escapeDebug p '"') ++ ['"']
  | .token n => n
  | .pair a b => c!"(" ++ (nl (d + 1) ++ (prettyAt p (d + 1) a ++ (c!"," ++ (nl (d + 1) ++ (prettyAt p (d + 1) b ++ (c!"," ++
      (nl d ++ c!")")))))))
  | .triple a b c => c!"(" ++ (nl (d + 1) ++ (prettyAt p (d + 1) a ++ (c!"," ++ (nl (d + 1) ++ (prettyAt p (d + 1) b ++ (c!"," ++
      (nl (d + 1) ++ (prettyAt p (d + 1) c ++ (c!"," ++ (nl d ++ c!")"))))))))))
  | .none => c!"None"
  | .some a => c!"Some(" ++ (nl (d + 1) ++ (prettyAt p (d + 1) a ++ (c!"," ++ (nl d ++ c!")"))))
  | .list as => c!"[" ++ (prettyListAt p d as ++ ((if as.isEmpty then [] else nl d) ++ c!"]"))
  | .box a => prettyAt p d a
  | .struct n as => n ++ (if as.isEmpty then [] else c!" {" ++ (prettyFieldsAt p d as ++ (nl d ++ c!"}")))
  | .newtype n a => n ++ (c!"(" ++ (nl (d + 1) ++ (prettyAt p (d + 1) a ++ (c!"," ++ (nl d ++ c!")")))))
  | .variant _ x a => x ++ (c!"(" ++ (nl (d + 1) ++ (prettyAt p (d + 1) a ++ (c!"," ++ (nl d ++ c!")")))))

/-- The elements of a `Vec` -/
def prettyListAt (p : Char → Bool) (d : Nat) : List Val → Str
  | [] => []
  | a :: as => nl (d + 1) ++ (prettyAt p (d + 1) a ++ (c!"," ++ prettyListAt p d as))

/-- The fields of a struct -/
def prettyFieldsAt (p : Char → Bool) (d : Nat) : List (Str × Val) → Str
  | [] => []
  | (x, a) :: as => nl (d + 1) ++ (x ++ (c!": " ++ (prettyAt p (d + 1) a ++ (c!"," ++ prettyFieldsAt p d as))))

end

/-- What is printed begins with a line that is not empty, and grows by four spaces on all other lines when it is indented. -/
structure Deepens (f : Nat → Str) : Prop where
  head : ∃ c, c ≠ '\n' ∧ ∀ d, ∃ r, f d = c :: r
  step : ∀ d t, indent false (f d ++ t) = f (d + 1) ++ indent false t

theorem Deepens.const {s : Str} (h : '\n' ∉ s) (hs : Starts s) : Deepens fun _ => s := by
  obtain ⟨c, r, rfl, hc⟩ := hs
  exact ⟨⟨c, fun e => h (by simp [e]), fun _ => ⟨r, rfl⟩⟩, fun _ t => indent_line t h⟩

/-- After a line end, a piece is indented. -/
theorem Deepens.nl {f : Nat → Str} (h : Deepens f) (d e : Nat) (t : Str) :
    indent false (nl d ++ (f e ++ t)) = nl (d + 1) ++ (f (e + 1) ++ indent false t) := by
  obtain ⟨c, h1, h2⟩ := h.head
  have h3 := h.step e t
  obtain ⟨r, hr⟩ := h2 e
  rw [hr] at h3 ⊢
  have h4 := indent_line (s := [c]) (r ++ t) (by simpa using h1.symm)
  have h5 := indent_nl d (s := [c]) (r ++ t) (by simpa using h1.symm) (by simp)
  simp only [List.cons_append, List.nil_append] at h3 h4 h5 ⊢
  rw [h5, ← h3, h4]

theorem entry_eq {f : Nat → Str} (h : Deepens f) (t : Str) : entry (f 0) ++ t = c!"    " ++ (f 1 ++ (c!",\n" ++ t)) := by
  have h1 := h.nl 0 0 c!",\n"
  simp only [Printed.nl, Nat.mul_zero, List.replicate_zero, List.cons_append, List.nil_append, indent, beq_self_eq_true,
    List.cons.injEq, true_and] at h1
  rw [entry, h1]
  simp [indent, List.replicate]

theorem listAt_step {p : Char → Bool} : ∀ {as : List Val}, (∀ a ∈ as, Deepens fun d => prettyAt p d a) → ∀ d t,
    indent false (prettyListAt p d as ++ t) = prettyListAt p (d + 1) as ++ indent false t
  | [], _, d, t => rfl
  | a :: as, h, d, t => by
    simp only [prettyListAt, List.append_assoc]
    rw [(h a (by simp)).nl (d + 1) (d + 1), indent_line _ (by decide), listAt_step fun b hb => h b (List.mem_cons_of_mem _ hb)]

theorem fieldsAt_step {p : Char → Bool} : ∀ {as : List (Str × Val)},
    (∀ a ∈ as, '\n' ∉ a.1 ∧ Deepens fun d => prettyAt p d a.2) → ∀ d t,
    indent false (prettyFieldsAt p d as ++ t) = prettyFieldsAt p (d + 1) as ++ indent false t
  | [], _, d, t => rfl
  | (x, a) :: as, h, d, t => by
    obtain ⟨h1, h2⟩ := h (x, a) (by simp)
    have h3 : '\n' ∉ x ++ c!": " := by simpa using h1
    have e := indent_nl (d + 1) (prettyAt p (d + 1) a ++ (c!"," ++ (prettyFieldsAt p d as ++ t))) h3 (by simp)
    simp only [prettyFieldsAt, List.append_assoc] at e ⊢
    rw [e, h2.step, indent_line _ (by decide), fieldsAt_step fun b hb => h b (List.mem_cons_of_mem _ hb)]

theorem indent_close (d : Nat) (c : Char) (t : Str) (hc : c ≠ '\n') :
    indent false (nl d ++ (c :: t)) = nl (d + 1) ++ (c :: indent false t) :=
  indent_nl d (s := [c]) t (by simpa using hc.symm) (by simp)

theorem str_line (p : Char → Bool) (s : Str) : '\n' ∉ '"' :: s.flatMap (escapeDebug p '"') ++ ['"'] := by
  have h : ∀ c ∈ s, '\n' ∉ escapeDebug p '"' c := fun c _ => (escape_oneLine (.inl rfl) c).1
  simp only [List.cons_append, List.mem_cons, List.mem_append, List.mem_flatMap, List.not_mem_nil, or_false, not_or, not_exists, not_and]
  exact ⟨by decide, h, by decide⟩

/-- The fields of a value have the names of the declaration. -/
theorem field_names {is : List Item} (hf : Fielded is) {n : Str} {ps : List Str} {fs : List (Str × RTy)} {vs : List (Str × Val)}
    (h : .struct n ps fs ∈ is) (hn : vs.map Prod.fst = fs.map Prod.fst) : ∀ a ∈ vs, '\n' ∉ a.1 := by
  intro a ha
  have : a.1 ∈ fs.map Prod.fst := hn ▸ List.mem_map_of_mem ha
  obtain ⟨f, hf', e⟩ := List.mem_map.mp this
  rw [← e]
  exact (hf _ _ _ h f hf').1

theorem mem_zip {is : List Item} {fs : List (Str × RTy)} {vs : List (Str × Val)} {Q : Val → Prop}
    (hn : vs.map Prod.fst = fs.map Prod.fst) (h : ∀ p ∈ fs.zip vs, Q p.2.2) : ∀ a ∈ vs, Q a.2 := by
  intro a ha
  obtain ⟨i, hi, rfl⟩ := List.mem_iff_getElem.mp ha
  have e : fs.length = vs.length := by simpa using (congrArg List.length hn).symm
  have h1 : (fs[i]'(by omega), vs[i]) ∈ fs.zip vs := List.mem_iff_getElem.mpr ⟨i, by simp; omega, by simp⟩
  exact h _ h1

theorem word_head {n : Str} (h : IsWord n) : ∃ c r, n = c :: r ∧ c ≠ '\n' := by
  obtain ⟨h1, h2⟩ := h
  cases n with
  | nil => exact absurd rfl h1
  | cons c n =>
    refine ⟨c, n, rfl, ?_⟩
    rintro rfl
    exact absurd (h2 '\n' (by simp)) (by decide)

theorem prettyAt_deepens {is : List Item} (hw : Worded is) (hf : Fielded is) (p : Char → Bool) {T : RTy} {v : Val}
    (h : HasType is T v) : Deepens fun d => prettyAt p d v := by
  induction h with
  | unit => exact .const (s := c!"()") (by decide) ⟨_, _, rfl, by decide⟩
  | str s => simp only [prettyAt]; exact .const (str_line p s) ⟨_, _, rfl, by decide⟩
  | char c =>
    simp only [prettyAt]
    refine .const ?_ ⟨_, _, rfl, by decide⟩
    simpa using (escape_oneLine (p := p) (.inr rfl) c).1
  | bool a => cases a <;> exact .const (by simp) ⟨_, _, rfl, by decide⟩
  | none => exact .const (s := c!"None") (by decide) ⟨_, _, rfl, by decide⟩
  | some _ ih =>
    refine ⟨⟨'S', by decide, fun d => ⟨_, by simp only [prettyAt]; rfl⟩⟩, fun d t => ?_⟩
    simp only [prettyAt, List.append_assoc]
    rw [indent_line _ (by decide), ih.nl (d + 1) (d + 1), indent_line _ (by decide)]
    exact congrArg _ (congrArg _ (congrArg _ (congrArg _ (indent_close _ _ _ (by decide)))))
  | @list _ as _ ih =>
    refine ⟨⟨'[', by decide, fun d => ⟨_, by simp only [prettyAt]; rfl⟩⟩, fun d t => ?_⟩
    simp only [prettyAt, List.append_assoc]
    rw [indent_line _ (by decide), listAt_step ih]
    cases as with
    | nil => simp [indent]
    | cons a as => exact congrArg _ (congrArg _ (indent_close _ _ _ (by decide)))
  | box _ ih => simpa only [prettyAt] using ih
  | pair _ _ ih ih' =>
    refine ⟨⟨'(', by decide, fun d => ⟨_, by simp only [prettyAt]; rfl⟩⟩, fun d t => ?_⟩
    simp only [prettyAt, List.append_assoc]
    rw [indent_line _ (by decide), ih.nl (d + 1) (d + 1), indent_line _ (by decide), ih'.nl (d + 1) (d + 1), indent_line _ (by decide)]
    exact congrArg _ (congrArg _ (congrArg _ (congrArg _ (congrArg _ (congrArg _ (congrArg _ (indent_close _ _ _ (by decide))))))))
  | triple _ _ _ ih ih' ih'' =>
    refine ⟨⟨'(', by decide, fun d => ⟨_, by simp only [prettyAt]; rfl⟩⟩, fun d t => ?_⟩
    simp only [prettyAt, List.append_assoc]
    rw [indent_line _ (by decide), ih.nl (d + 1) (d + 1), indent_line _ (by decide), ih'.nl (d + 1) (d + 1), indent_line _ (by decide),
      ih''.nl (d + 1) (d + 1), indent_line _ (by decide)]
    exact congrArg _ (congrArg _ (congrArg _ (congrArg _ (congrArg _ (congrArg _ (congrArg _ (congrArg _ (congrArg _ (congrArg _
      (indent_close _ _ _ (by decide)))))))))))
  | token h =>
    simp only [prettyAt]
    have := (hw _ h).1 _ rfl
    exact .const this.oneLine.1 (by simpa using this.starts [])
  | newtype h _ ih =>
    have hn := (hw _ h).1 _ rfl
    obtain ⟨c, r, e, h1⟩ := word_head hn
    refine ⟨⟨c, h1, fun d => ⟨_, by simp only [prettyAt, e]; rfl⟩⟩, fun d t => ?_⟩
    simp only [prettyAt, List.append_assoc]
    rw [indent_line _ hn.oneLine.1, indent_line _ (by decide), ih.nl (d + 1) (d + 1), indent_line _ (by decide)]
    exact congrArg _ (congrArg _ (congrArg _ (congrArg _ (congrArg _ (indent_close _ _ _ (by decide))))))
  | @struct T ps fs vs h hl hn hv ih =>
    have hT := (hw _ h).1 _ rfl
    obtain ⟨c, r, e, h1⟩ := word_head hT
    refine ⟨⟨c, h1, fun d => ⟨_, by simp only [prettyAt, e]; rfl⟩⟩, fun d t => ?_⟩
    have h3 := field_names hf h hn
    have h4 := mem_zip (is := is) (Q := fun v => Deepens fun d => prettyAt p d v) hn ih
    simp only [prettyAt, List.append_assoc]
    rw [indent_line _ hT.oneLine.1]
    refine congrArg _ ?_
    cases vs with
    | nil => simp
    | cons a as =>
      simp only [List.isEmpty_cons, Bool.false_eq_true, if_false, List.append_assoc]
      rw [indent_line _ (by decide), fieldsAt_step fun a ha => ⟨h3 a ha, h4 a ha⟩]
      exact congrArg _ (congrArg _ (indent_close _ _ _ (by decide)))
  | @variant n x vs T v h hx _ ih =>
    have hn : IsWord x := (hw _ h).2 _ _ rfl _ (List.mem_map_of_mem (f := Prod.fst) hx)
    obtain ⟨c, r, e, h1⟩ := word_head hn
    refine ⟨⟨c, h1, fun d => ⟨_, by simp only [prettyAt, e]; rfl⟩⟩, fun d t => ?_⟩
    simp only [prettyAt, List.append_assoc]
    rw [indent_line _ hn.oneLine.1, indent_line _ (by decide), ih.nl (d + 1) (d + 1), indent_line _ (by decide)]
    exact congrArg _ (congrArg _ (congrArg _ (congrArg _ (congrArg _ (indent_close _ _ _ (by decide))))))
  | «alias» _ _ ih => exact ih

theorem nl_zero (t : Str) : nl 0 ++ t = '\n' :: t := rfl

theorem nl_one (t : Str) : nl 1 ++ t = '\n' :: (c!"    " ++ t) := rfl

theorem list_eq {p : Char → Bool} : ∀ {as : List Val} (c : Char) (t : Str), (∀ a ∈ as, Deepens fun d => prettyAt p d a) →
    (∀ a ∈ as, a.pretty p = prettyAt p 0 a) → '\n' :: (prettyList p as ++ t) = prettyListAt p 0 as ++ '\n' :: t
  | [], _, _, _, _ => rfl
  | a :: as, c, t, h, he => by
    have ih := list_eq c t (fun b hb => h b (List.mem_cons_of_mem _ hb)) (fun b hb => he b (List.mem_cons_of_mem _ hb))
    rw [prettyList, he a (by simp), List.append_assoc, entry_eq (h a (by simp)), prettyListAt]
    simp only [List.append_assoc]
    rw [← ih]
    rfl

theorem fields_eq {p : Char → Bool} : ∀ {as : List (Str × Val)} (t : Str),
    (∀ a ∈ as, '\n' ∉ a.1 ∧ Deepens fun d => prettyAt p d a.2) →
    (∀ a ∈ as, a.2.pretty p = prettyAt p 0 a.2) → '\n' :: (prettyFields p as ++ t) = prettyFieldsAt p 0 as ++ '\n' :: t
  | [], _, _, _ => rfl
  | (x, a) :: as, t, h, he => by
    have ih := fields_eq t (fun b hb => h b (List.mem_cons_of_mem _ hb)) (fun b hb => he b (List.mem_cons_of_mem _ hb))
    obtain ⟨h1, h2⟩ := h (x, a) (by simp)
    have h3 : Deepens fun d => x ++ c!": " ++ prettyAt p d a := by
      refine ⟨?_, fun d t => ?_⟩
      · cases x with
        | nil => exact ⟨':', by decide, fun d => ⟨_, rfl⟩⟩
        | cons c x => exact ⟨c, fun e => h1 (by simp [e]), fun d => ⟨_, rfl⟩⟩
      · have h3 : '\n' ∉ x ++ c!": " := by simpa using h1
        rw [List.append_assoc, indent_line _ h3, h2.step]
        simp only [List.append_assoc]
    rw [prettyFields, he (x, a) (by simp), List.append_assoc, entry_eq h3, prettyFieldsAt]
    simp only [List.append_assoc]
    rw [← ih]
    rfl

/-- The depth at the outside is 0. -/
theorem pretty_eq {is : List Item} (hw : Worded is) (hf : Fielded is) (p : Char → Bool) {T : RTy} {v : Val} (h : HasType is T v) :
    v.pretty p = prettyAt p 0 v := by
  have key : ∀ {T : RTy} {v : Val}, HasType is T v → Deepens fun d => prettyAt p d v := fun h => prettyAt_deepens hw hf p h
  induction h with
  | unit | str | char | none | token => simp only [Val.pretty, prettyAt]
  | bool a => simp only [Val.pretty, prettyAt]
  | some h ih =>
    rw [Val.pretty, ih, List.append_assoc, entry_eq (key h)]
    simp only [prettyAt]; rfl
  | @list _ as h ih =>
    rw [Val.pretty, prettyAt]
    cases as with
    | nil => rfl
    | cons a as =>
      have := list_eq '[' c!"]" (fun a ha => key (h a ha)) ih
      simp only [List.isEmpty_cons, Bool.false_eq_true, if_false, List.append_assoc, List.cons_append, List.nil_append]
      rw [this]; rfl
  | box _ ih => rw [Val.pretty, prettyAt, ih]
  | pair h h' ih ih' =>
    rw [Val.pretty, ih, ih', List.append_assoc, List.append_assoc, entry_eq (key h), entry_eq (key h')]
    simp only [prettyAt]; rfl
  | triple h h' h'' ih ih' ih'' =>
    rw [Val.pretty, ih, ih', ih'', List.append_assoc, List.append_assoc, List.append_assoc, entry_eq (key h), entry_eq (key h'),
      entry_eq (key h'')]
    simp only [prettyAt]; rfl
  | newtype _ h ih =>
    rw [Val.pretty, ih, List.append_assoc, List.append_assoc, entry_eq (key h)]
    simp only [prettyAt]; rfl
  | @struct T ps fs vs h hl hn hv ih =>
    have h3 := field_names hf h hn
    have h4 := mem_zip (is := is) (Q := fun v => Deepens fun d => prettyAt p d v) hn fun q hq => key (hv q hq)
    have h5 := mem_zip (is := is) (Q := fun v => v.pretty p = prettyAt p 0 v) hn ih
    rw [Val.pretty, prettyAt]
    refine congrArg _ ?_
    cases vs with
    | nil => rfl
    | cons a as =>
      have := fields_eq c!"}" (fun a ha => ⟨h3 a ha, h4 a ha⟩) h5
      simp only [List.isEmpty_cons, Bool.false_eq_true, if_false, List.append_assoc, List.cons_append, List.nil_append]
      rw [this]; rfl
  | variant _ _ h ih =>
    rw [Val.pretty, ih, List.append_assoc, List.append_assoc, entry_eq (key h)]
    simp only [prettyAt]; rfl
  | «alias» _ _ ih => exact ih

theorem nl_close (d : Nat) (u v : Str) : nl d ++ ']' :: u ≠ nl (d + 1) ++ v := by
  intro h
  have e : List.replicate (4 * (d + 1)) ' ' = List.replicate (4 * d) ' ' ++ c!"    " := by
    rw [show 4 * (d + 1) = 4 * d + 4 from by omega, ← List.replicate_append_replicate]; rfl
  simp only [nl, e, List.cons_append, List.append_assoc, List.cons.injEq, true_and] at h
  have := List.append_cancel_left h
  simp at this

/-- After an element -/
theorem prettyRest_splits {p : Char → Bool} {d : Nat} : ∀ {as bs : List Val} {xs ys : Str},
    (∀ a ∈ as, ∀ b ∈ bs, Splits (prettyAt p (d + 1)) a b) →
    prettyListAt p d as ++ (nl d ++ ']' :: xs) = prettyListAt p d bs ++ (nl d ++ ']' :: ys) → as = bs ∧ xs = ys
  | [], [], _, _, _, h => ⟨rfl, by simpa [prettyListAt] using List.append_cancel_left h⟩
  | [], b :: bs, _, _, _, h => by
    simp only [prettyListAt, List.append_assoc, List.nil_append] at h
    exact absurd h (nl_close d _ _)
  | a :: as, [], _, _, _, h => by
    simp only [prettyListAt, List.append_assoc, List.nil_append] at h
    exact absurd h.symm (nl_close d _ _)
  | a :: as, b :: bs, _, _, hs, h => by
    simp only [prettyListAt, List.append_assoc] at h
    obtain ⟨rfl, k1⟩ := hs a (by simp) b (by simp) _ _ (List.append_cancel_left h)
    obtain ⟨rfl, k2⟩ := prettyRest_splits (fun a ha b hb => hs a (List.mem_cons_of_mem _ ha) b (List.mem_cons_of_mem _ hb))
      (List.append_cancel_left k1)
    exact ⟨rfl, k2⟩

theorem prettyList_splits {p : Char → Bool} {d : Nat} {as bs : List Val} {xs ys : Str}
    (hs : ∀ a ∈ as, ∀ b ∈ bs, Splits (prettyAt p (d + 1)) a b)
    (h : prettyListAt p d as ++ ((if as.isEmpty then [] else nl d) ++ ']' :: xs) =
      prettyListAt p d bs ++ ((if bs.isEmpty then [] else nl d) ++ ']' :: ys)) : as = bs ∧ xs = ys := by
  cases as with
  | nil =>
    cases bs with
    | nil => exact ⟨rfl, by simpa [prettyListAt] using h⟩
    | cons b bs => simp [prettyListAt, nl] at h
  | cons a as =>
    cases bs with
    | nil => simp [prettyListAt, nl] at h
    | cons b bs => exact prettyRest_splits hs (by simpa using h)

theorem prettyFields_splits {p : Char → Bool} {d : Nat} : ∀ {as bs : List (Str × Val)} {xs ys : Str},
    (∀ q ∈ as.zip bs, Splits (prettyAt p (d + 1)) q.1.2 q.2.2) → as.map Prod.fst = bs.map Prod.fst →
    prettyFieldsAt p d as ++ xs = prettyFieldsAt p d bs ++ ys → as = bs ∧ xs = ys
  | [], [], _, _, _, _, h => ⟨rfl, h⟩
  | (x, a) :: as, (y, b) :: bs, xs, ys, hs, hl, h => by
    simp only [List.map_cons, List.cons.injEq] at hl
    obtain ⟨rfl, hl⟩ := hl
    simp only [prettyFieldsAt, List.append_assoc] at h
    obtain ⟨e, k1⟩ := hs ((x, a), (x, b)) (by simp) _ _ (List.append_cancel_left (List.append_cancel_left (List.append_cancel_left h)))
    obtain rfl : a = b := e
    obtain ⟨rfl, k2⟩ := prettyFields_splits (fun p hp => hs p (by simp [hp])) hl (List.append_cancel_left k1)
    exact ⟨rfl, k2⟩
  | [], _ :: _, _, _, _, hl, _ => by simp at hl
  | _ :: _, [], _, _, _, hl, _ => by simp at hl

theorem prettyAt_splits {is : List Item} (hw : Worded is) (p : Char → Bool) {a b : Val} (h : Twins is a b) :
    ∀ d, Splits (prettyAt p d) a b := by
  induction h with
  | unit | none | token => intro d xs ys h; exact ⟨rfl, List.append_cancel_left h⟩
  | str s t =>
    intro d xs ys h
    simp only [prettyAt, List.cons_append, List.append_assoc, List.nil_append, List.cons.injEq, true_and] at h
    obtain ⟨rfl, k⟩ := quoted_splits h
    exact ⟨rfl, k⟩
  | char c e =>
    intro d xs ys h
    simp only [prettyAt, List.cons_append, List.append_assoc, List.nil_append, List.cons.injEq, true_and] at h
    obtain ⟨rfl, k⟩ := escape_splits (.inr rfl) h
    exact ⟨rfl, by simpa using k⟩
  | bool b c =>
    intro d xs ys h
    revert h
    cases b <;> cases c <;> simp [prettyAt]
  | noneSome => intro d xs ys h; simp [prettyAt] at h
  | someNone => intro d xs ys h; simp [prettyAt] at h
  | some _ ih =>
    intro d xs ys h
    simp only [prettyAt, List.append_assoc] at h
    obtain ⟨rfl, k⟩ := ih _ _ _ (List.append_cancel_left (List.append_cancel_left h))
    exact ⟨rfl, by simpa using k⟩
  | list _ _ _ ih =>
    intro d xs ys h
    simp only [prettyAt, List.append_assoc] at h
    obtain ⟨rfl, k⟩ := prettyList_splits (fun a ha b hb => ih a ha b hb (d + 1)) (List.append_cancel_left h)
    exact ⟨rfl, k⟩
  | box _ ih =>
    intro d xs ys h
    simp only [prettyAt] at h
    obtain ⟨rfl, k⟩ := ih _ _ _ h
    exact ⟨rfl, k⟩
  | pair _ _ ih ih' =>
    intro d xs ys h
    simp only [prettyAt, List.append_assoc] at h
    obtain ⟨rfl, k1⟩ := ih _ _ _ (List.append_cancel_left (List.append_cancel_left h))
    obtain ⟨rfl, k2⟩ := ih' _ _ _ (List.append_cancel_left (List.append_cancel_left k1))
    exact ⟨rfl, by simpa using k2⟩
  | triple _ _ _ ih ih' ih'' =>
    intro d xs ys h
    simp only [prettyAt, List.append_assoc] at h
    obtain ⟨rfl, k1⟩ := ih _ _ _ (List.append_cancel_left (List.append_cancel_left h))
    obtain ⟨rfl, k2⟩ := ih' _ _ _ (List.append_cancel_left (List.append_cancel_left k1))
    obtain ⟨rfl, k3⟩ := ih'' _ _ _ (List.append_cancel_left (List.append_cancel_left k2))
    exact ⟨rfl, by simpa using k3⟩
  | newtype _ ih =>
    intro d xs ys h
    simp only [prettyAt, List.append_assoc] at h
    obtain ⟨rfl, k⟩ := ih _ _ _ (List.append_cancel_left (List.append_cancel_left (List.append_cancel_left h)))
    exact ⟨rfl, by simpa using k⟩
  | @struct n as bs hn _ ih =>
    intro d xs ys h
    simp only [prettyAt, List.append_assoc] at h
    have h := List.append_cancel_left h
    have key : ∀ {as bs : List (Str × Val)}, as.map Prod.fst = bs.map Prod.fst →
        (∀ q ∈ as.zip bs, ∀ d, Splits (prettyAt p d) q.1.2 q.2.2) →
        (if as.isEmpty then [] else c!" {" ++ (prettyFieldsAt p d as ++ (nl d ++ c!"}"))) ++ xs =
        (if bs.isEmpty then [] else c!" {" ++ (prettyFieldsAt p d bs ++ (nl d ++ c!"}"))) ++ ys → as = bs ∧ xs = ys := by
      intro as bs hn ih h
      cases as with
      | nil =>
        cases bs with
        | nil => exact ⟨rfl, h⟩
        | cons b bs => simp at hn
      | cons a as =>
        cases bs with
        | nil => simp at hn
        | cons b bs =>
          simp only [List.isEmpty_cons, Bool.false_eq_true, if_false, List.append_assoc] at h
          obtain ⟨e, k⟩ := prettyFields_splits (fun q hq => ih q hq (d + 1)) hn (List.append_cancel_left h)
          exact ⟨e, by simpa using k⟩
    obtain ⟨rfl, k⟩ := key hn ih h
    exact ⟨rfl, k⟩
  | variant he hx hy _ ih =>
    intro d xs ys h
    simp only [prettyAt, List.append_assoc] at h
    obtain ⟨rfl, k1⟩ := split_at ((hw _ he).2 _ _ rfl _ hx).not_mem ((hw _ he).2 _ _ rfl _ hy).not_mem h
    obtain ⟨rfl, k2⟩ := ih rfl _ _ _ (List.append_cancel_left k1)
    exact ⟨rfl, by simpa using k2⟩

end Verif.Source.Printed
