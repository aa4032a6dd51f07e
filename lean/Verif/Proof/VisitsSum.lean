import Verif.Proof.VisitsDef

/-! # The places that are visited, one after the other -/

namespace Verif.Visits
open Nom Spec

variable {α : Type}

/-- The texts on which terminals are tried, with what this costs. -/
def Places (s : Str) (W : (Str → Nat) → Nat → Prop) : Prop :=
  ∃ L : List Str, (∀ t ∈ L, t <:+ s) ∧ ∀ w, W w (L.map w).sum

theorem Places.here {s : Str} {W W' : (Str → Nat) → Nat → Prop} (h : Places s W) (hw : ∀ w n, W w n → W' w n) : Places s W' := by
  obtain ⟨L, h1, h2⟩ := h
  exact ⟨L, h1, fun w => hw _ _ (h2 w)⟩

theorem Places.two {s r : Str} {W W' W'' : (Str → Nat) → Nat → Prop} (h : Places s W) (h' : Places r W')
    (hr : W (visit 0) ((h.choose).map (visit 0)).sum → r <:+ s) (hw : ∀ w n n', W w n → W' w n' → W'' w (n + n')) : Places s W'' := by
  have h1 := h.choose_spec
  obtain ⟨L', h3, h4⟩ := h'
  refine ⟨h.choose ++ L', fun t ht => ?_, fun w => ?_⟩
  · rcases List.mem_append.1 ht with ht | ht
    · exact h1.1 t ht
    · exact (h3 t ht).trans (hr (h1.2 _))
  · rw [List.map_append, List.sum_append]
    exact hw _ _ _ (h1.2 w) (h4 w)

theorem places {g : G α} {s : Str} {c : Nat} {x : Res Char α} (h : Runs charLeaf g s c x) :
    Places s fun w n => Weighed charLeaf w g s n x := by
  refine Runs.rec
    (motive_1 := fun {α} g s c x _ => Places s fun w n => Weighed charLeaf w g s n x)
    (motive_2 := fun {α β} sep g s c x _ => Places s fun w n => WeighedTail charLeaf w sep g s n x)
    ?_ ?_ ?_ ?_ ?_ ?_ ?_ ?_ ?_ ?_ ?_ ?_ ?_ ?_ ?_ ?_ ?_ ?_ ?_ ?_ ?_ ?_ ?_ ?_ ?_ ?_ ?_ ?_ ?_ ?_ h
  · exact ⟨[], by simp, fun w => .ret⟩
  · intro α l s; exact ⟨[s], by simp, fun w => by simpa using Weighed.leaf⟩
  · rintro α β g f s r a x c d _ _ h1 h3; exact h1.two h3 (fun h => h.suffix) fun w n n' h h' => .bindOk h h'
  · rintro α β g f s e c _ h1; exact h1.here fun w n h => .bindErr h
  · rintro α g h s r a c _ h1; exact h1.here fun w n h => .orElseOk h
  · rintro α g h s p k x c d _ _ h1 h3; exact h1.two h3 (fun _ => List.suffix_refl _) fun w n n' h h' => .orElseNext h h'
  · rintro α g h s e c _ he h1; exact h1.here fun w n h => .orElseErr h he
  · exact ⟨[], by simp, fun w => .altEnd⟩
  · rintro α g s r a c _ h1; exact h1.here fun w n h => .optSome h
  · rintro α g s p k c _ h1; exact h1.here fun w n h => .optNone h
  · rintro α g s e c _ he h1; exact h1.here fun w n h => .optErr h he
  · rintro α g s p k c _ h1; exact h1.here fun w n h => .many0Stop h
  · rintro α g s e c _ he h1; exact h1.here fun w n h => .many0Err h he
  · rintro α g s a c _ h1; exact h1.here fun w n h => .many0Empty h
  · rintro α g s r a x c d _ hne _ h1 h3; exact h1.two h3 (fun h => h.suffix) fun w n n' h h' => .many0More h hne h'
  · rintro α β sep g s p k c _ h1; exact h1.here fun w n h => .sepStop h
  · rintro α β sep g s e c _ he h1; exact h1.here fun w n h => .sepErr h he
  · rintro α β sep g s a c _ h1; exact h1.here fun w n h => .sepEmpty h
  · rintro α β sep g s r a x c d _ hne _ h1 h3; exact h1.two h3 (fun h => h.suffix) fun w n n' h h' => .sepMore h hne h'
  · rintro α β sep g s e c _ h1; exact h1.here fun w n h => .sep1Err h
  · rintro α β sep g s a c _ h1; exact h1.here fun w n h => .sep1Empty h
  · rintro α β sep g s r a x c d _ hne _ h1 h3; exact h1.two h3 (fun h => h.suffix) fun w n n' h h' => .sep1More h hne h'
  · rintro α N s x c _ h1; exact h1.here fun w n h => .call h
  · rintro α β sep g s p k c _ h1; exact h1.here fun w n h => .noSep h
  · rintro α β sep g s e c _ he h1; exact h1.here fun w n h => .sepErr h he
  · rintro α β sep g s b c _ h1; exact h1.here fun w n h => .sepEmpty h
  · rintro α β sep g s r p b k c d _ hne _ h1 h3; exact h1.two h3 (fun h => h.suffix) fun w n n' h h' => .noElem h hne h'
  · rintro α β sep g s r b e c d _ hne _ he h1 h3; exact h1.two h3 (fun h => h.suffix) fun w n n' h h' => .elemErr h hne h' he
  · rintro α β sep g s r b a c d _ hne _ h1 h3; exact h1.two h3 (fun h => h.suffix) fun w n n' h h' => .back h hne h'
  · rintro α β sep g s r q b a x c d e _ hne _ hne2 _ h1 h3 h5
    have h6 : Places s fun w k => ∃ n n', k = n + n' ∧ Weighed charLeaf w sep s n (.ok r b) ∧ Weighed charLeaf w g r n' (.ok q a) :=
      h1.two h3 (fun h => h.suffix) fun w n n' h h' => ⟨n, n', rfl, h, h'⟩
    refine h6.two h5 (fun ⟨_, _, _, h, h'⟩ => h'.suffix.trans h.suffix) fun w n n' h h' => ?_
    obtain ⟨n1, n2, rfl, h7, h8⟩ := h
    exact .more h7 hne h8 hne2 h'

/-- A sum over what is visited, in terms of how often it is visited. -/
theorem sum_places (w : Str → Nat) (T : List Str) {K : Nat} (L : List Str) (hL : ∀ t ∈ L, t ∈ T) (hK : ∀ t ∈ T, L.count t ≤ K) :
    (L.map w).sum ≤ K * (T.map w).sum := by
  have h1 : (L.map w).sum ≤ (T.map fun t => L.count t * w t).sum := by
    clear hK
    induction L with
    | nil => simp
    | cons u L ih =>
      have h2 := ih fun t ht => hL t (List.mem_cons_of_mem _ ht)
      have h3 : u ∈ T := hL u (by simp)
      have h4 : ∀ T : List Str, (T.map fun t => (u :: L).count t * w t).sum =
          (T.map fun t => L.count t * w t).sum + (T.map fun t => if u = t then w t else 0).sum := fun T => by
        induction T with
        | nil => rfl
        | cons t T ih =>
          simp only [List.map_cons, List.sum_cons, List.count_cons, beq_iff_eq] at ih ⊢
          rw [ih]
          by_cases h : u = t
          · simp only [if_pos h, Nat.add_mul]; omega
          · simp only [if_neg h, Nat.add_zero, Nat.zero_add]; omega
      have h5 : ∀ T : List Str, u ∈ T → w u ≤ (T.map fun t => if u = t then w t else 0).sum := fun T hT => by
        induction T with
        | nil => cases hT
        | cons t T ih =>
          simp only [List.map_cons, List.sum_cons]
          rcases List.mem_cons.1 hT with rfl | hT
          · simp
          · have := ih hT
            omega
      have := h5 T h3
      rw [h4, List.map_cons, List.sum_cons]
      omega
  refine Nat.le_trans h1 ?_
  clear h1 hL
  induction T with
  | nil => simp
  | cons t T ih =>
    have h2 := ih fun u hu => hK u (List.mem_cons_of_mem _ hu)
    have h3 := Nat.mul_le_mul_right (w t) (hK t (by simp))
    simp only [List.map_cons, List.sum_cons, Nat.mul_add]
    omega

theorem count_visit (s : Str) (L : List Str) (hL : ∀ t ∈ L, t <:+ s) {t : Str} (ht : t <:+ s) : L.count t = (L.map (visit t.length)).sum := by
  induction L with
  | nil => rfl
  | cons u L ih =>
    rw [List.count_cons, List.map_cons, List.sum_cons, ih fun v hv => hL v (List.mem_cons_of_mem _ hv), Nat.add_comm]
    congr 1
    have h1 := hL u (by simp)
    unfold visit
    by_cases h : u = t
    · simp [h]
    · rw [if_neg (by simpa using h), if_neg]
      intro h2
      refine h ?_
      rcases List.suffix_or_suffix_of_suffix h1 ht with h3 | h3
      · exact h3.eq_of_length h2
      · exact (h3.eq_of_length h2.symm).symm

theorem mem_ends {s t : Str} : t ∈ ends s ↔ t <:+ s := by
  induction s with
  | nil => simp [ends]
  | cons c s ih => rw [ends, List.mem_cons, ih, List.suffix_cons_iff]

/-- Costs of any kind, from how often a place is visited. -/
theorem weighed_le {g : G α} {s : Str} {x : Res Char α} {K : Nat} (hK : ∀ m n, V m g s n x → n ≤ K) (w : Str → Nat) {c : Nat}
    (h : Weighed charLeaf w g s c x) {k : Nat} (hr : Runs charLeaf g s k x) : c ≤ K * ((ends s).map w).sum := by
  obtain ⟨L, h1, h2⟩ := places hr
  obtain rfl := (Verif.Weighed.det (h2 w) _ _ h).1
  refine sum_places w (ends s) L (fun t ht => mem_ends.2 (h1 t ht)) fun t ht => ?_
  rw [count_visit s L h1 (mem_ends.1 ht)]
  exact hK _ _ (h2 _)

theorem weighed_one_of {g : G α} {s : Str} {c : Nat} {x : Res Char α} (h : Runs charLeaf g s c x) :
    Weighed charLeaf (fun _ => 1) g s c x := by
  refine Runs.rec
    (motive_1 := fun {α} g s c x _ => Weighed charLeaf (fun _ => 1) g s c x)
    (motive_2 := fun {α β} sep g s c x _ => WeighedTail charLeaf (fun _ => 1) sep g s c x)
    ?_ ?_ ?_ ?_ ?_ ?_ ?_ ?_ ?_ ?_ ?_ ?_ ?_ ?_ ?_ ?_ ?_ ?_ ?_ ?_ ?_ ?_ ?_ ?_ ?_ ?_ ?_ ?_ ?_ ?_ h
  · exact .ret
  · intro α l s; exact .leaf
  · rintro α β g f s r a x c d _ _ h1 h3; exact .bindOk h1 h3
  · rintro α β g f s e c _ h1; exact .bindErr h1
  · rintro α g h s r a c _ h1; exact .orElseOk h1
  · rintro α g h s p k x c d _ _ h1 h3; exact .orElseNext h1 h3
  · rintro α g h s e c _ he h1; exact .orElseErr h1 he
  · exact .altEnd
  · rintro α g s r a c _ h1; exact .optSome h1
  · rintro α g s p k c _ h1; exact .optNone h1
  · rintro α g s e c _ he h1; exact .optErr h1 he
  · rintro α g s p k c _ h1; exact .many0Stop h1
  · rintro α g s e c _ he h1; exact .many0Err h1 he
  · rintro α g s a c _ h1; exact .many0Empty h1
  · rintro α g s r a x c d _ hne _ h1 h3; exact .many0More h1 hne h3
  · rintro α β sep g s p k c _ h1; exact .sepStop h1
  · rintro α β sep g s e c _ he h1; exact .sepErr h1 he
  · rintro α β sep g s a c _ h1; exact .sepEmpty h1
  · rintro α β sep g s r a x c d _ hne _ h1 h3; exact .sepMore h1 hne h3
  · rintro α β sep g s e c _ h1; exact .sep1Err h1
  · rintro α β sep g s a c _ h1; exact .sep1Empty h1
  · rintro α β sep g s r a x c d _ hne _ h1 h3; exact .sep1More h1 hne h3
  · rintro α N s x c _ h1; exact .call h1
  · rintro α β sep g s p k c _ h1; exact .noSep h1
  · rintro α β sep g s e c _ he h1; exact .sepErr h1 he
  · rintro α β sep g s b c _ h1; exact .sepEmpty h1
  · rintro α β sep g s r p b k c d _ hne _ h1 h3; exact .noElem h1 hne h3
  · rintro α β sep g s r b e c d _ hne _ he h1 h3; exact .elemErr h1 hne h3 he
  · rintro α β sep g s r b a c d _ hne _ h1 h3; exact .back h1 hne h3
  · rintro α β sep g s r q b a x c d e _ hne _ hne2 _ h1 h3 h5
    exact .more h1 hne h3 hne2 h5

theorem weighed_one {g : G α} {s : Str} {c : Nat} {x : Res Char α} :
    Weighed charLeaf (fun _ => 1) g s c x ↔ Runs charLeaf g s c x := by
  refine ⟨fun h => ?_, weighed_one_of⟩
  obtain ⟨k, h1, -⟩ := Verif.Weighed.runs h fun _ => Nat.le_refl _
  obtain ⟨rfl, -⟩ := Verif.Weighed.det h _ _ (weighed_one_of h1)
  exact h1

end Verif.Visits
