import Verif.Proof.LinkMac
import Verif.Proof.Lexing

/-! # Items of texts that are alike -/

namespace Verif.Links
open Nom Spec Source

variable {Q : ItemKind → Str → Str → Prop}

def leafOf : ItemKind → Leaf Str
  | .name => .ident
  | .string => .string
  | .decimal => .dec
  | .hexadecimal => .hex
  | .octal => .oct
  | .float => .float

theorem content_text {k : ItemKind} {w v : Str} (h : k.Content w v) : LeafText (leafOf k) w v := by
  cases k with
  | name => exact ⟨h.2.1, h.1⟩
  | string => exact ⟨h.2, h.1⟩
  | _ => exact ⟨h.2.symm, h.2 ▸ h.1⟩

theorem text_shape {k : ItemKind} {w v : Str} (h : LeafText (leafOf k) w v) :
    (k = .name ∧ name v [w]) ∨ (k = .string ∧ w = '"' :: v ++ ['"'] ∧ '"' ∉ v) ∨
    (v = w ∧ ((k = .decimal ∧ Regex.dec.Matches w) ∨ (k = .hexadecimal ∧ Regex.hex.Matches w) ∨
      (k = .octal ∧ Regex.oct.Matches w) ∨ (k = .float ∧ Regex.float.Matches w))) := by
  cases k with
  | name => exact .inl ⟨rfl, h.2, by simpa using h.1⟩
  | string => exact .inr (.inl ⟨rfl, h⟩)
  | decimal => exact .inr (.inr ⟨h.1.symm, .inl ⟨rfl, h.1 ▸ h.2⟩⟩)
  | hexadecimal => exact .inr (.inr ⟨h.1.symm, .inr (.inl ⟨rfl, h.1 ▸ h.2⟩)⟩)
  | octal => exact .inr (.inr ⟨h.1.symm, .inr (.inr (.inl ⟨rfl, h.1 ▸ h.2⟩))⟩)
  | float => exact .inr (.inr ⟨h.1.symm, .inr (.inr (.inr ⟨rfl, h.1 ▸ h.2⟩))⟩)

theorem name_not_number {v w : Str} (h : name v [w]) (hn : Number w) : False :=
  number_solid (e := []) (e' := []) (.inl ⟨v, h⟩) hn rfl

theorem string_not_number {v w : Str} (h : w = '"' :: v ++ ['"'] ∧ '"' ∉ v) (hn : Number w) : False :=
  number_solid (e := []) (e' := []) (.inr (.inr (.inl ⟨v, h.2, by rw [h.1]⟩))) hn rfl

theorem name_not_string {u v w : Str} (h : name u [w]) (h' : w = '"' :: v ++ ['"']) : False := by
  obtain ⟨c, x, rfl, h1, -⟩ := name_chars h
  simp at h'
  obtain ⟨rfl, -⟩ := h'
  revert h1
  decide

theorem name_content {u v w : Str} (h : name u [w]) (h' : name v [w]) : u = v := by
  have key : ∀ {u v : Str}, name u ['_' :: v] → u = v := by
    intro u v ⟨h1, h2⟩
    obtain ⟨c, x, rfl, h3, -⟩ := word_cons h1
    simp at h2
    rcases h2 with ⟨rfl, -⟩ | h2
    · exact absurd h3 (by decide)
    · exact h2.symm
  obtain ⟨h1, h2⟩ := id h
  obtain ⟨h1', h2'⟩ := id h'
  simp at h2 h2'
  rcases h2 with rfl | rfl
  · rcases h2' with rfl | rfl
    · rfl
    · exact key h
  · exact (key h').symm

/-- An item has one kind and one content. -/
theorem kind_unique {k k' : ItemKind} {w v v' : Str} (h : LeafText (leafOf k) w v) (h' : LeafText (leafOf k') w v') :
    k = k' ∧ v = v' := by
  have p : w <+: w := List.prefix_refl w
  replace h := text_shape h
  replace h' := text_shape h'
  rcases h with ⟨rfl, h⟩ | ⟨rfl, h⟩ | ⟨rfl, h⟩
  · rcases h' with ⟨rfl, h'⟩ | ⟨rfl, h'⟩ | ⟨rfl, h'⟩
    · exact ⟨rfl, name_content h h'⟩
    · exact (name_not_string h h'.1).elim
    · refine (name_not_number h ?_).elim
      rcases h' with h' | h' | h' | h'
      · exact .inl h'.2
      · exact .inr (.inl h'.2)
      · exact .inr (.inr (.inl h'.2))
      · exact .inr (.inr (.inr h'.2))
  · rcases h' with ⟨rfl, h'⟩ | ⟨rfl, h'⟩ | ⟨rfl, h'⟩
    · exact (name_not_string h' h.1).elim
    · have := h.1.symm.trans h'.1
      exact ⟨rfl, by simpa using this⟩
    · refine (string_not_number h ?_).elim
      rcases h' with h' | h' | h' | h'
      · exact .inl h'.2
      · exact .inr (.inl h'.2)
      · exact .inr (.inr (.inl h'.2))
      · exact .inr (.inr (.inr h'.2))
  · have hn : Number v := by
      rcases h with h | h | h | h
      · exact .inl h.2
      · exact .inr (.inl h.2)
      · exact .inr (.inr (.inl h.2))
      · exact .inr (.inr (.inr h.2))
    rcases h' with ⟨rfl, h'⟩ | ⟨rfl, h'⟩ | ⟨rfl, h'⟩
    · exact (name_not_number h' hn).elim
    · exact (string_not_number h' hn).elim
    · rcases h with ⟨rfl, h⟩ | ⟨rfl, h⟩ | ⟨rfl, h⟩ | ⟨rfl, h⟩ <;>
        rcases h' with ⟨rfl, h'⟩ | ⟨rfl, h'⟩ | ⟨rfl, h'⟩ | ⟨rfl, h'⟩ <;>
        first
        | exact ⟨rfl, rfl⟩
        | exact (dec_no_float h p h').elim
        | exact (hex_no_float h p h').elim
        | exact (oct_no_float h p h').elim
        | exact (hex_no_dec h p h').elim
        | exact (oct_no_dec h p h').elim
        | exact (oct_no_hex h p h').elim
        | exact (dec_no_float h' p h).elim
        | exact (hex_no_float h' p h).elim
        | exact (oct_no_float h' p h).elim
        | exact (hex_no_dec h' p h).elim
        | exact (oct_no_dec h' p h).elim
        | exact (oct_no_hex h' p h).elim

theorem alike_text {k : ItemKind} {w w' v : Str} (h : Alike Q w w') (ht : LeafText (leafOf k) w v) :
    ∃ v', LeafText (leafOf k) w' v' ∧ (v = v' ∨ Q k v v') := by
  cases h with
  | same => exact ⟨v, ht, .inl rfl⟩
  | content h h' hq =>
    obtain ⟨rfl, rfl⟩ := kind_unique ht (content_text h)
    exact ⟨_, content_text h', .inr hq⟩

theorem alike_symm {w w' : Str} (h : Alike Q w w') : Alike (fun k a b => Q k b a) w' w := by
  cases h with
  | same => exact .same
  | content h h' hq => exact .content h' h hq

theorem kw_keyword (k : Kw) : k.text ∈ keywords ∨ k = .negInfinity := by cases k <;> decide +kernel

theorem kw_fixed {k : Kw} {w' : Str} (h : Alike Q k.text w') : w' = k.text := by
  cases h with
  | same => rfl
  | @content j _ _ v v' h h' hq =>
    exfalso
    rcases text_shape (content_text h) with ⟨rfl, h1⟩ | ⟨rfl, h1⟩ | ⟨rfl, h1⟩
    · rcases kw_keyword k with h2 | rfl
      · exact h.2.2 h2
      · obtain ⟨c, v, h3, h4, -⟩ := name_chars h1
        simp [Kw.text] at h3
        rw [← h3.1] at h4
        revert h4; decide
    · have := kw_chars k '"' (by rw [h1.1]; simp)
      revert this; decide
    · refine number_solid (e := []) (e' := []) (solid_kw k) ?_ rfl
      rcases h1 with h1 | h1 | h1 | h1
      · exact .inl h1.2
      · exact .inr (.inl h1.2)
      · exact .inr (.inr (.inl h1.2))
      · exact .inr (.inr (.inr h1.2))

theorem punct_fixed {p : Punct} (hp : p ≠ .dot ∧ p ≠ .minus) {w' : Str} (h : Alike Q p.text w') : w' = p.text := by
  cases h with
  | same => rfl
  | @content j _ _ v v' h h' hq =>
    exfalso
    rcases text_shape (content_text h) with ⟨rfl, h1⟩ | ⟨rfl, h1⟩ | ⟨rfl, h1⟩
    · exact name_ne_punct h1
    · have := congrArg List.head? h1.1
      cases p <;> simp [Punct.text] at this
    · refine number_solid (e := []) (e' := []) (solid_punct hp.1 hp.2) ?_ rfl
      rcases h1 with h1 | h1 | h1 | h1
      · exact .inl h1.2
      · exact .inr (.inl h1.2)
      · exact .inr (.inr (.inl h1.2))
      · exact .inr (.inr (.inr h1.2))

/-! ## Reading one item -/

/-- No leaf of an integer before a floating point number, and none of an octal one before a hexadecimal one. -/
def Fit {α : Type} : Leaf α → Str → Prop
  | .dec, w | .hex, w => ¬ Regex.float.Matches w
  | .oct, w => ¬ Regex.float.Matches w ∧ ¬ Regex.hex.Matches w
  | _, _ => True

theorem dec_no_zero {w w' g v : Str} (h : Regex.dec.Matches w) (hp : w' <+: w) (hg : Sign g) (e : w' = g ++ '0' :: v) :
    False := by
  obtain ⟨g', d, ds, rfl, h1, h2, -⟩ := dec_nf h
  subst e
  obtain ⟨t, ht⟩ := hp
  rw [List.append_assoc, List.cons_append] at ht
  have hd : d ≠ '-' := by rintro rfl; exact absurd h2.1 (by decide)
  obtain ⟨rfl, rfl, h⟩ := sign_inj hg h1 (by decide) hd ht
  exact absurd h2.1 (by decide)

theorem no_reader {α : Type} {l : Leaf α} {s w e : Str} (h1 : strip s = w ++ e)
    (h : ∀ w' e' v, w ++ e = w' ++ e' → ¬ LeafText l w' v) :
    (∃ v, LeafText l w v ∧ charLeaf α l s = .ok (strip e) v) ∨ ((∀ v, ¬ LeafText l w v) ∧ Fails (charLeaf α l) s) :=
  .inr ⟨fun v hv => h w e v rfl hv, charLeaf_fails fun w' e' v' h2 h3 _ => h w' e' v' (h1 ▸ h2) h3⟩

theorem reads_item {α : Type} {l : Leaf α} (hl : Verif.Plain l) {s w e : Str} (hw : Item w) (he : Separate w e)
    (h1 : strip s = w ++ e) (hf : Fit l w) :
    (∃ v, LeafText l w v ∧ charLeaf α l s = .ok (strip e) v) ∨ ((∀ v, ¬ LeafText l w v) ∧ Fails (charLeaf α l) s) := by
  rcases item_iff.1 hw with hs | hn
  · exact (reader_solid hl hs fun hy => apart_wordy hy he.1).charLeaf h1
  · have hne : NumEnd e := .of (he.2 hn)
    have pre : ∀ {w' e'}, Number w' → w ++ e = w' ++ e' → w' <+: w := fun hn' h =>
      hn'.prefix hne (h ▸ List.prefix_append _ _)
    cases l with
    | kw k => exact no_reader h1 fun w' e' v h2 h3 => number_solid (h3 ▸ solid_kw k) hn h2.symm
    | punct p => exact no_reader h1 fun w' e' v h2 h3 => number_solid (h3 ▸ solid_punct hl.1 hl.2) hn h2.symm
    | ident => exact no_reader h1 fun w' e' v h2 h3 => number_solid (.inl ⟨v, h3.2, by simpa using h3.1⟩) hn h2.symm
    | string =>
      exact no_reader h1 fun w' e' v h2 h3 => number_solid (.inr (.inr (.inl ⟨v, h3.2, by rw [h3.1]⟩))) hn h2.symm
    | float =>
      rcases hn with h | h | h | h
      · exact no_reader h1 fun w' e' v h2 h3 => dec_no_float h (pre (float_number _ _ h3) h2) (h3.1 ▸ h3.2)
      · exact no_reader h1 fun w' e' v h2 h3 => hex_no_float h (pre (float_number _ _ h3) h2) (h3.1 ▸ h3.2)
      · exact no_reader h1 fun w' e' v h2 h3 => oct_no_float h (pre (float_number _ _ h3) h2) (h3.1 ▸ h3.2)
      · exact .inl ⟨w, ⟨rfl, h⟩,
          charLeaf_ok_iff.2 ⟨w, e, h1, ⟨rfl, h⟩, Number.longest (fun _ => .inr ∘ .inr ∘ .inr) hne, rfl⟩⟩
    | dec =>
      rcases hn with h | h | h | h
      · exact .inl ⟨w, ⟨rfl, h⟩, charLeaf_ok_iff.2 ⟨w, e, h1, ⟨rfl, h⟩, Number.longest (fun _ => .inl) hne, rfl⟩⟩
      · exact no_reader h1 fun w' e' v h2 h3 => hex_no_dec h (pre (dec_number _ _ h3) h2) (h3.1 ▸ h3.2)
      · exact no_reader h1 fun w' e' v h2 h3 => oct_no_dec h (pre (dec_number _ _ h3) h2) (h3.1 ▸ h3.2)
      · exact absurd h hf
    | hex =>
      rcases hn with h | h | h | h
      · refine no_reader h1 fun w' e' v h2 h3 => ?_
        have h5 := pre (hex_number _ _ h3) h2
        obtain ⟨g, x, ds, e0, h6, -⟩ := hex_nf h3.2
        exact dec_no_zero h h5 h6 (h3.1.trans e0)
      · exact .inl ⟨w, ⟨rfl, h⟩, charLeaf_ok_iff.2 ⟨w, e, h1, ⟨rfl, h⟩, Number.longest (fun _ => .inr ∘ .inl) hne, rfl⟩⟩
      · exact no_reader h1 fun w' e' v h2 h3 => oct_no_hex h (pre (hex_number _ _ h3) h2) (h3.1 ▸ h3.2)
      · exact absurd h hf
    | oct =>
      rcases hn with h | h | h | h
      · refine no_reader h1 fun w' e' v h2 h3 => ?_
        have h5 := pre (oct_number _ _ h3) h2
        obtain ⟨g, ds, e0, h6, -⟩ := oct_nf h3.2
        exact dec_no_zero h h5 h6 (h3.1.trans e0)
      · exact absurd h hf.2
      · exact .inl ⟨w, ⟨rfl, h⟩,
          charLeaf_ok_iff.2 ⟨w, e, h1, ⟨rfl, h⟩, Number.longest (fun _ => .inr ∘ .inr ∘ .inl) hne, rfl⟩⟩
      · exact absurd h hf.1

/-! ## Reading from texts that are alike -/

theorem alikeTexts_symm {s t : Str} (h : AlikeTexts Q s t) : AlikeTexts (fun k a b => Q k b a) t s := by
  obtain ⟨ls, ls', h1, h2, h3⟩ := h
  refine ⟨ls', ls, h2, h1, ?_⟩
  clear h1 h2
  induction h3 with
  | nil => exact .nil
  | cons h _ ih => exact .cons (alike_symm h) ih

/-- The first items and what follows them. -/
inductive Heads (Q : ItemKind → Str → Str → Prop) (s t : Str) : Prop where
  | nil (hs : strip s = []) (ht : strip t = [])
  | cons {w e w' e' : Str} (hs : strip s = w ++ e) (ht : strip t = w' ++ e') (hw : Item w) (hw' : Item w')
      (he : Separate w e) (he' : Separate w' e') (ha : Alike Q w w') (hr : AlikeTexts Q (strip e) (strip e'))

theorem items_split {w : Str} {ls : List Str} {s : Str} (h : Lexes s (w :: ls)) :
    ∃ e, strip s = w ++ e ∧ Item w ∧ Separate w e ∧ Lexes (strip e) ls := by
  obtain ⟨t, b, rfl, ht, hb⟩ := h
  have e := items_strip hb
  rw [strip_trivia ht, e]
  cases hb with
  | @cons _ _ t' s' hw ht' hs ha =>
    refine ⟨t' ++ s', rfl, hw, ha, ?_⟩
    rw [strip_trivia ht', items_strip hs]
    exact ⟨[], s', rfl, .nil, hs⟩

theorem heads {s t : Str} (h : AlikeTexts Q s t) : Heads Q s t := by
  obtain ⟨ls, ls', h1, h2, h3⟩ := h
  cases h3 with
  | nil =>
    obtain ⟨t, b, rfl, ht, hb⟩ := h1
    obtain ⟨t', b', rfl, ht', hb'⟩ := h2
    cases hb
    cases hb'
    exact .nil (by rw [strip_trivia ht]; rfl) (by rw [strip_trivia ht']; rfl)
  | cons h hs =>
    obtain ⟨e, e1, e2, e3, e4⟩ := items_split h1
    obtain ⟨e', e1', e2', e3', e4'⟩ := items_split h2
    exact .cons e1 e1' e2 e2' e3 e3' h ⟨_, _, e4, e4', hs⟩

theorem read_shorter {s w e : Str} (h : strip s = w ++ e) (hw : Item w) : strip e ≠ s := by
  intro h'
  have h1 := (strip_suffix s).length_le
  have h2 := (strip_suffix e).length_le
  have h3 := List.length_pos_iff.2 (item_ne_nil hw)
  rw [h, List.length_append] at h1
  rw [h'] at h2
  omega

theorem suff_leaf {α : Type} {l : Leaf α} : Suff (charLeaf α l) := suff_of_fine (charLeaf_fine α l)

theorem fails_nil {α : Type} {l : Leaf α} {s : Str} (h : strip s = []) : Fails (charLeaf α l) s := by
  refine charLeaf_fails fun w e v h1 h2 => ?_
  rw [h] at h1
  exact absurd (List.append_eq_nil_iff.1 h1.symm).1 (leafText_ne_nil h2)

/-- The leaf `l` fits to the first item. -/
def FitText {α : Type} (l : Leaf α) (s : Str) : Prop := ∀ w e, strip s = w ++ e → Item w → Separate w e → Fit l w

theorem linked_leaf {α : Type} {l : Leaf α} (hl : Verif.Plain l) {V : α → α → Prop}
    (ht : ∀ {w w' v}, Alike Q w w' → LeafText l w v → ∃ v', LeafText l w' v')
    (ht' : ∀ {w w' v'}, Alike Q w w' → LeafText l w' v' → ∃ v, LeafText l w v)
    (hv : ∀ {w w' v v'}, Alike Q w w' → LeafText l w v → LeafText l w' v' → V v v')
    {s t : Str} (h : AlikeTexts Q s t) (hs : FitText l s) (hs' : FitText l t) :
    Linked (AlikeTexts Q) V s t (charLeaf α l s) (charLeaf α l t) := by
  cases heads h with
  | nil h1 h2 =>
    obtain ⟨p, k, e⟩ := fails_nil (l := l) h1
    obtain ⟨p', k', e'⟩ := fails_nil (l := l) h2
    rw [e, e']
    exact .err
  | cons h1 h2 hw hw' he he' ha hr =>
    rcases reads_item hl hw he h1 (hs _ _ h1 hw he) with ⟨v, h3, e⟩ | ⟨h3, p, k, e⟩
    · rcases reads_item hl hw' he' h2 (hs' _ _ h2 hw' he') with ⟨v', h3', e'⟩ | ⟨h3', p', k', e'⟩
      · rw [e, e']
        exact .ok hr (hv ha h3 h3') ⟨fun h => absurd h (read_shorter h1 hw), fun h => absurd h (read_shorter h2 hw')⟩
      · obtain ⟨v', h4⟩ := ht ha h3
        exact absurd h4 (h3' v')
    · rcases reads_item hl hw' he' h2 (hs' _ _ h2 hw' he') with ⟨v', h3', e'⟩ | ⟨h3', p', k', e'⟩
      · obtain ⟨v, h4⟩ := ht' ha h3'
        exact absurd h4 (h3 v)
      · rw [e, e']
        exact .err

theorem linked_kind {k : ItemKind} {s t : Str} (h : AlikeTexts Q s t) (hs : FitText (leafOf k) s) (hs' : FitText (leafOf k) t) :
    Linked (AlikeTexts Q) (fun v v' => v = v' ∨ Q k v v') s t (charLeaf Str (leafOf k) s) (charLeaf Str (leafOf k) t) := by
  refine linked_leaf (by cases k <;> trivial) (fun ha h1 => ?_) (fun ha h1 => ?_) (fun ha h1 h2 => ?_) h hs hs'
  · obtain ⟨v', h2, -⟩ := alike_text ha h1
    exact ⟨v', h2⟩
  · obtain ⟨v', h2, -⟩ := alike_text (alike_symm ha) h1
    exact ⟨v', h2⟩
  · obtain ⟨v', h3, h4⟩ := alike_text ha h1
    rw [(kind_unique h2 h3).2]
    exact h4

theorem linked_kw {k : Kw} {s t : Str} (h : AlikeTexts Q s t) :
    Linked (AlikeTexts Q) (fun _ _ => True) s t (charLeaf Unit (.kw k) s) (charLeaf Unit (.kw k) t) := by
  refine linked_leaf (l := .kw k) trivial (fun ha h1 => ⟨(), ?_⟩) (fun ha h1 => ⟨(), ?_⟩) (fun _ _ _ => trivial) h
    (fun _ _ _ _ _ => trivial) fun _ _ _ _ _ => trivial
  · cases h1
    exact kw_fixed ha
  · cases h1
    exact kw_fixed (alike_symm ha)

theorem linked_punct {p : Punct} (hp : p ≠ .dot ∧ p ≠ .minus) {s t : Str} (h : AlikeTexts Q s t) :
    Linked (AlikeTexts Q) (fun _ _ => True) s t (charLeaf Unit (.punct p) s) (charLeaf Unit (.punct p) t) := by
  refine linked_leaf (l := .punct p) hp (fun ha h1 => ⟨(), ?_⟩) (fun ha h1 => ⟨(), ?_⟩) (fun _ _ _ => trivial) h
    (fun _ _ _ _ _ => trivial) fun _ _ _ _ _ => trivial
  · cases h1
    exact punct_fixed hp ha
  · cases h1
    exact punct_fixed hp (alike_symm ha)

/-! ## The parsers of items in the source -/

/-- With few nested calls it does not return, with more it is the leaf. -/
def IsLeaf {α : Type} (T : RTy) (l : Leaf α) (v : α → Val) : Prop :=
  ∀ n, (∀ s, parse decls n T s = .diverge) ∨ (∀ s, parse decls n T s = resMap v (charLeaf α l s))

theorem sp_const (n m : Nat) : parse decls (n + 1) (.path0 c!"sp") = parse decls (m + 1) (.path0 c!"sp") := by
  funext s
  rw [Recodes.parse_sp, Recodes.parse_sp]

theorem parse_found {T : RTy} {d : Decl} (h : find decls T.name = some d) (n : Nat) :
    parse decls (n + 1) T = d.parser (parse decls n) T.args := by
  rw [parse, h]

theorem isLeaf_of {α : Type} {T : RTy} {d : Decl} {l : Leaf α} {v : α → Val} (hf : find decls T.name = some d)
    (hc : ∀ s, Conv id (fun n => parse decls n T) (charLeaf α l) v s)
    (h1 : ∀ s, d.parser (parse decls 0) T.args s = .diverge)
    (h2 : ∀ n m, d.parser (parse decls (n + 1)) T.args = d.parser (parse decls (m + 1)) T.args) : IsLeaf T l v := by
  intro n
  match n with
  | 0 => exact .inl fun s => rfl
  | 1 => exact .inl fun s => by rw [parse_found hf]; exact h1 s
  | n + 2 =>
    refine .inr fun s => ?_
    obtain ⟨N, hN⟩ := hc s
    have := hN (N + 2) (by omega)
    rw [← this]
    show _ = resMap id (parse decls (N + 2) T s)
    rw [parse_found hf, parse_found hf, h2 n N]
    cases d.parser (parse decls (N + 1)) T.args s <;> rfl

theorem leaf_kind (k : ItemKind) : IsLeaf (.path0 k.type) (leafOf k) (fun v => .newtype k.type (.str v)) := by
  cases k with
  | name =>
    refine isLeaf_of find_Identifier c_ident (fun s => rfl) fun n m => ?_
    simp only [Decl.parser, Mac.ws, Mac.run, sp_const n m]
  | string =>
    refine isLeaf_of find_StringLit c_string (fun s => rfl) fun n m => ?_
    simp only [Decl.parser, Mac.ws, Mac.run, sp_const n m]
  | decimal =>
    refine isLeaf_of find_DecLit c_dec (fun s => rfl) fun n m => ?_
    simp only [Decl.parser, Mac.ws, Mac.run, sp_const n m]
  | hexadecimal =>
    refine isLeaf_of find_HexLit c_hex (fun s => rfl) fun n m => ?_
    simp only [Decl.parser, Mac.ws, Mac.run, sp_const n m]
  | octal =>
    refine isLeaf_of find_OctLit c_oct (fun s => rfl) fun n m => ?_
    simp only [Decl.parser, Mac.ws, Mac.run, sp_const n m]
  | float =>
    refine isLeaf_of find_FloatValueLit c_float (fun s => rfl) fun n m => ?_
    simp only [Decl.parser, Mac.ws, Mac.run, sp_const n m]

theorem find_punct (p : Punct) : find decls (punctType p) =
    some (.fn (punctType p) [] (.bind none (.ws (.tag p.text)) (.ret (.token (punctType p))))) := by
  cases p <;> decide +kernel

theorem find_kw (k : Kw) : find decls (kwType k) =
    some (.fn (kwType k) [] (.bind none (.ws (.identTag k.text)) (.ret (.token (kwType k))))) := by
  cases k <;> decide +kernel

theorem leaf_punct (p : Punct) : IsLeaf (.path0 (punctType p)) (.punct p) (fun _ => punctVal p) := by
  refine isLeaf_of (find_punct _) (c_punct p) (fun s => rfl) fun n m => ?_
  simp only [Decl.parser, Mac.ws, Mac.run, RTy.subst, assign, Option.getD, sp_const n m]

theorem leaf_kw (k : Kw) : IsLeaf (.path0 (kwType k)) (.kw k) (fun _ => kwVal k) := by
  refine isLeaf_of (find_kw _) (c_kw k) (fun s => rfl) fun n m => ?_
  simp only [Decl.parser, Mac.ws, Mac.run, RTy.subst, assign, Option.getD, sp_const n m]

theorem linked_isLeaf {α : Type} {T : RTy} {l : Leaf α} {v : α → Val} (hl : IsLeaf T l v) {V : α → α → Prop}
    (hv : ∀ {a b}, V a b → Like Q (v a) (v b)) {s t : Str}
    (h : Linked (AlikeTexts Q) V s t (charLeaf α l s) (charLeaf α l t)) (n : Nat) :
    Linked (AlikeTexts Q) (Like Q) s t (parse decls n T s) (parse decls n T t) := by
  rcases hl n with h1 | h1
  · rw [h1 s]
    exact .left
  · rw [h1, h1]
    generalize charLeaf α l s = x at h
    generalize charLeaf α l t = y at h
    cases h with
    | left => exact .left
    | right => exact .right
    | err => exact .err
    | ok h1 h2 h3 => exact .ok h1 (hv h2) h3

theorem suff_parse (n : Nat) (T : RTy) : Suff (parse decls n T) := (Recodes.comm_parse Recodes.crlf_recoding n T).left

def allKw : List Kw :=
  [.or, .optional, .async, .attribute, .callback, .const, .deleter, .dictionary, .enum, .getter, .includes,
   .inherit, .interface, .iterable, .maplike, .namespace, .partial, .required, .setlike, .setter, .static,
   .stringifier, .typedef, .unrestricted, .symbol, .negInfinity, .byteString, .domString, .frozenArray, .infinity,
   .nan, .usvString, .any, .boolean, .byte, .double, .false, .float, .long, .null, .object, .octet, .sequence,
   .short, .true, .unsigned, .undefined, .record, .arrayBuffer, .dataView, .int8Array, .int16Array, .int32Array,
   .uint8Array, .uint16Array, .uint32Array, .uint8ClampedArray, .float32Array, .float64Array, .arrayBufferView,
   .bufferSource, .promise, .error, .readOnly, .mixin, .implements, .legacyCaller, .constructor]

def allPunct : List Punct :=
  [.openParen, .closeParen, .openBracket, .closeBracket, .openBrace, .closeBrace, .comma, .minus, .dot, .ellipsis,
   .colon, .semiColon, .lessThan, .assign, .greaterThan, .qMark, .asterisk]

theorem item_decls : decls.all (fun d => !itemDecl d ||
    ([ItemKind.name, .string, .float].any (fun k => k.type == d.name) || (allKw.any (fun k => kwType k == d.name) ||
      allPunct.any (fun p => punctType p == d.name && (innerTypes.contains d.name || (p != .dot && p != .minus)))))) = true := by
  decide +kernel

theorem parse_plain {T : RTy} {d : Decl} (hd : find decls T.name = some d) (hp : d.params = []) (n : Nat) :
    parse decls n T = parse decls n (.path0 T.name) := by
  cases n with
  | zero => rfl
  | succ n =>
    simp only [parse, show (RTy.path0 T.name).name = T.name from rfl, hd]
    cases d with
    | struct m ps fs => simp only [Decl.params] at hp; subst hp; rfl
    | fn m ps k => simp only [Decl.params] at hp; subst hp; rfl
    | newtype => rfl
    | enum => rfl
    | «alias» => rfl

end Verif.Links
