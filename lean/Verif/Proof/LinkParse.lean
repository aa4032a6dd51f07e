import Verif.Proof.LinkItems

/-! # All parsers of the source, side by side -/

namespace Verif.Links
open Nom Spec Source

variable {Q : ItemKind → Str → Str → Prop}

theorem like_contents {k : ItemKind} {a b : Str} (h : a = b ∨ Q k a b) :
    Like Q (.newtype k.type (.str a)) (.newtype k.type (.str b)) := by
  rcases h with rfl | h
  · exact like_refl _
  · exact .content h

theorem linked_map {α β α' β' : Type} {V : α → α' → Prop} {W : β → β' → Prop} {R : Str → Str → Prop} {p : P Char α}
    {q : P Char α'} {f : α → β} {f' : α' → β'} {s t : Str} (h : Linked R V s t (p s) (q t))
    (hf : ∀ {a a'}, V a a' → W (f a) (f' a')) : Linked R W s t (Nom.map f p s) (Nom.map f' q t) := by
  simp only [Nom.map, Nom.seq]
  generalize p s = x at h
  generalize q t = y at h
  cases h with
  | left => exact .left
  | right => exact .right
  | err => exact .err
  | ok h1 h2 h3 => exact .ok h1 (hf h2) h3

theorem map_err {α β : Type} {p : P Char α} {f : α → β} {s : Str} (h : ∃ k e, Nom.map f p s = .err (.error k e)) :
    ∃ k e, p s = .err (.error k e) := by
  obtain ⟨k, e, h⟩ := h
  simp only [Nom.map, Nom.seq] at h
  cases e' : p s with
  | ok => rw [e'] at h; cases h
  | diverge => rw [e'] at h; cases h
  | err x => rw [e'] at h; cases h; exact ⟨_, _, rfl⟩

theorem orElse_err {α : Type} {p q : P Char α} {s : Str} (h : ∃ k e, orElse p q s = .err (.error k e)) :
    ∃ k e, p s = .err (.error k e) := by
  obtain ⟨k, e, h⟩ := h
  simp only [orElse] at h
  cases e' : p s with
  | ok => rw [e'] at h; cases h
  | diverge => rw [e'] at h; cases h
  | err x =>
    rw [e'] at h
    cases x with
    | error => exact ⟨_, _, rfl⟩
    | _ => cases h

/-- No item of this kind comes first. -/
def NotFirst (k : ItemKind) (s : Str) : Prop :=
  ∀ w e, strip s = w ++ e → Item w → Separate w e → ∀ v, ¬ LeafText (leafOf k) w v

theorem not_first {k : ItemKind} {n : Nat} {s : Str} (hf : FitText (leafOf k) s)
    (h : ∃ p e, parse decls n (.path0 k.type) s = .err (.error p e)) : NotFirst k s := by
  intro w e h1 h2 h3
  obtain ⟨p, c, h⟩ := h
  rcases leaf_kind k n with h4 | h4
  · rw [h4] at h; cases h
  · rcases reads_item (by cases k <;> trivial) h2 h3 h1 (hf _ _ h1 h2 h3) with ⟨v, -, e⟩ | ⟨h5, -⟩
    · rw [h4, e] at h; cases h
    · exact h5

theorem fit_other {k : ItemKind} (h : k = .name ∨ k = .string ∨ k = .float) {s : Str} : FitText (leafOf k) s := by
  rcases h with rfl | rfl | rfl <;> exact fun _ _ _ _ _ => trivial

theorem not_float {n : Nat} {s : Str} (h : ∃ p e, parse decls n (.path0 c!"FloatLit") s = .err (.error p e)) :
    NotFirst .float s := by
  cases n with
  | zero => obtain ⟨_, _, h⟩ := h; cases h
  | succ n =>
    rw [parse_found (T := .path0 c!"FloatLit") find_FloatLit] at h
    exact not_first (n := n) (fit_other (.inr (.inr rfl))) (map_err (orElse_err h))

theorem linked_integer {s t : Str} (h : AlikeTexts Q s t) (hs : NotFirst .float s) (ht : NotFirst .float t) (n : Nat) :
    Linked (AlikeTexts Q) (Like Q) s t (parse decls n (.path0 c!"IntegerLit") s) (parse decls n (.path0 c!"IntegerLit") t) := by
  have hd : ∀ {s}, NotFirst .float s → FitText (leafOf .decimal) s := fun hs w e h1 h2 h3 h4 => hs w e h1 h2 h3 w ⟨rfl, h4⟩
  have hh : ∀ {s}, NotFirst .float s → FitText (leafOf .hexadecimal) s := fun hs w e h1 h2 h3 h4 => hs w e h1 h2 h3 w ⟨rfl, h4⟩
  have ho : ∀ {s}, NotFirst .float s → NotFirst .hexadecimal s → FitText (leafOf .octal) s := fun hs hx w e h1 h2 h3 =>
    ⟨fun h4 => hs w e h1 h2 h3 w ⟨rfl, h4⟩, fun h4 => hx w e h1 h2 h3 w ⟨rfl, h4⟩⟩
  cases n with
  | zero => exact .left
  | succ n =>
    rw [parse_found (T := .path0 c!"IntegerLit") find_IntegerLit]
    refine linked_orElse (linked_map (linked_isLeaf (leaf_kind .decimal) like_contents (linked_kind h (hd hs) (hd ht)) n)
      .variant) fun _ _ => ?_
    refine linked_orElse (linked_map (linked_isLeaf (leaf_kind .hexadecimal) like_contents (linked_kind h (hh hs) (hh ht)) n)
      .variant) fun e1 e2 => ?_
    have h1 := not_first (n := n) (hh hs) (map_err e1)
    have h2 := not_first (n := n) (hh ht) (map_err e2)
    exact linked_orElse (linked_map (linked_isLeaf (leaf_kind .octal) like_contents (linked_kind h (ho hs h1) (ho ht h2)) n)
      .variant) fun _ _ => .err

theorem linked_default {n : Nat} (ih : ∀ T, wholeB T = true → LinkV Q (AlikeTexts Q) (parse decls n T) (parse decls n T))
    {s t : Str} (h : AlikeTexts Q s t) : Linked (AlikeTexts Q) (Like Q) s t
      (parse decls (n + 1) (.path0 c!"DefaultValue") s) (parse decls (n + 1) (.path0 c!"DefaultValue") t) := by
  have hw : ∀ m, wholeB (.path0 m) = true → ∀ {c x}, Linked (AlikeTexts Q) (Like Q) s t
      (Nom.map (Val.variant c x) (parse decls n (.path0 m)) s) (Nom.map (Val.variant c x) (parse decls n (.path0 m)) t) :=
    fun m hm _ _ => linked_map ((ih _ hm).at_ h) .variant
  rw [parse_found (T := .path0 c!"DefaultValue") find_DefaultValue]
  refine linked_orElse (hw c!"BooleanLit" rfl) fun _ _ => ?_
  refine linked_orElse (hw c!"EmptyArrayLit" rfl) fun _ _ => ?_
  refine linked_orElse (hw c!"EmptyDictionaryLit" rfl) fun _ _ => ?_
  refine linked_orElse (hw c!"FloatLit" rfl) fun e1 e2 => ?_
  refine linked_orElse (linked_map (linked_integer h (not_float (map_err e1)) (not_float (map_err e2)) n) .variant) fun _ _ => ?_
  refine linked_orElse (hw c!"Null" rfl) fun _ _ => ?_
  exact linked_orElse (hw c!"StringLit" rfl) fun _ _ => .err

theorem linked_const {n : Nat} (ih : ∀ T, wholeB T = true → LinkV Q (AlikeTexts Q) (parse decls n T) (parse decls n T))
    {s t : Str} (h : AlikeTexts Q s t) : Linked (AlikeTexts Q) (Like Q) s t
      (parse decls (n + 1) (.path0 c!"ConstValue") s) (parse decls (n + 1) (.path0 c!"ConstValue") t) := by
  have hw : ∀ m, wholeB (.path0 m) = true → ∀ {c x}, Linked (AlikeTexts Q) (Like Q) s t
      (Nom.map (Val.variant c x) (parse decls n (.path0 m)) s) (Nom.map (Val.variant c x) (parse decls n (.path0 m)) t) :=
    fun m hm _ _ => linked_map ((ih _ hm).at_ h) .variant
  rw [parse_found (T := .path0 c!"ConstValue") find_ConstValue]
  refine linked_orElse (hw c!"BooleanLit" rfl) fun _ _ => ?_
  refine linked_orElse (hw c!"FloatLit" rfl) fun e1 e2 => ?_
  refine linked_orElse (linked_map (linked_integer h (not_float (map_err e1)) (not_float (map_err e2)) n) .variant) fun _ _ => ?_
  exact linked_orElse (hw c!"Null" rfl) fun _ _ => .err

theorem plain_decls : decls.all (fun d => !(itemDecl d || valueDecl d) || d.params == []) = true := by
  decide +kernel

theorem linked_item {d : Decl} (hd : d ∈ decls) (hi : itemDecl d = true) (hn : d.name ∉ innerTypes) {s t : Str}
    (h : AlikeTexts Q s t) (n : Nat) :
    Linked (AlikeTexts Q) (Like Q) s t (parse decls n (.path0 d.name) s) (parse decls n (.path0 d.name) t) := by
  have h1 := List.all_eq_true.1 item_decls d hd
  simp only [hi, Bool.not_true, Bool.false_or, Bool.or_eq_true, List.any_eq_true, beq_iff_eq, Bool.and_eq_true,
    List.contains_iff_mem, hn, false_or, bne_iff_ne] at h1
  rcases h1 with ⟨k, hk, h1⟩ | ⟨k, -, h1⟩ | ⟨p, -, h1, h2⟩
  · have hk : k = .name ∨ k = .string ∨ k = .float := by simpa using hk
    rw [← h1]
    exact linked_isLeaf (leaf_kind k) like_contents (linked_kind h (fit_other hk) (fit_other hk)) n
  · rw [← h1]
    exact linked_isLeaf (leaf_kw k) (fun _ => like_refl _) (linked_kw h) n
  · rw [← h1]
    exact linked_isLeaf (leaf_punct p) (fun _ => like_refl _) (linked_punct h2 h) n

theorem link_parse : ∀ n T, wholeB T = true → LinkV Q (AlikeTexts Q) (parse decls n T) (parse decls n T)
  | 0, T, _ => ⟨fun _ => .left, suff_parse 0 T, suff_parse 0 T⟩
  | n + 1, T, h => by
    have ih := link_parse n
    cases hf : find decls T.name with
    | none =>
      refine ⟨fun _ => ?_, suff_parse _ T, suff_parse _ T⟩
      rw [parse, hf]
      exact .left
    | some d =>
      have hd := List.mem_of_find?_eq_some hf
      have hn : d.name = T.name := by simpa using List.find?_some hf
      have hi := whole_name h
      rw [← hn] at hi
      have h1 := List.all_eq_true.1 whole_decls d hd
      simp only [Bool.or_eq_true, List.contains_iff_mem, hi, or_false] at h1
      have hp : itemDecl d = true ∨ valueDecl d = true → parse decls (n + 1) T = parse decls (n + 1) (.path0 d.name) := by
        intro h2
        have h3 := List.all_eq_true.1 plain_decls d hd
        rw [hn]
        refine parse_plain hf ?_ _
        have h4 : (itemDecl d || valueDecl d) = true := by simpa using h2
        simpa [h4] using h3
      rcases h1 with h1 | h1 | h1
      · rw [parse_found hf]
        exact link_decl ih h1 (whole_args h)
      · refine ⟨fun hs => ?_, suff_parse _ T, suff_parse _ T⟩
        rw [hp (.inl h1)]
        exact linked_item hd h1 hi hs _
      · refine ⟨fun hs => ?_, suff_parse _ T, suff_parse _ T⟩
        rw [hp (.inr h1)]
        simp only [valueDecl, List.contains_iff_mem, List.mem_cons, List.not_mem_nil, or_false] at h1
        rcases h1 with h1 | h1 <;> rw [h1]
        · exact linked_default ih hs
        · exact linked_const ih hs

end Verif.Links
