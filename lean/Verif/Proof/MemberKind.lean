import Verif.Spec.MemberKind
import Verif.Proof.Kind

/-! # Kinds of members, types and extended attributes -/

namespace Verif.MemberKind
open Nom Spec

/-! ## The ends of members -/

theorem paren_end (x : List Str) : endsWithParen (x ++ [c!")", c!";"]) = true := by
  rw [endsWithParen, List.isSuffixOf_iff_suffix]
  exact List.suffix_append _ _

theorem no_paren_end (x : List Str) {w : Str} (h : w ≠ c!")") : endsWithParen (x ++ [w, c!";"]) = false := by
  rw [Bool.eq_false_iff, ne_eq, endsWithParen, List.isSuffixOf_iff_suffix]
  rintro ⟨y, e⟩
  have := List.append_inj_right' e rfl
  simp only [List.cons.injEq] at this
  exact h this.1.symm

theorem isName_ne {w : Str} (h : IsName w) {c : Char} (hc : c.isAlpha = false) (hu : c ≠ '_') : w ≠ [c] := by
  rintro rfl
  obtain ⟨i, h1, h2⟩ := h
  obtain ⟨d, v, rfl, hd, -⟩ := word_iff.1 h1
  simp at h2
  rcases h2 with ⟨rfl, -⟩ | h2
  simp [hd] at hc

theorem single_ne {L : Lang} (hL : AllBalanced L) {ls : List Str} (h : L ls) : ls.getLast? ≠ some c!")" ∨ 2 ≤ ls.length := by
  match ls, h with
  | [], _ => left; simp
  | [w], h =>
    left
    intro e
    simp only [List.getLast?_singleton, Option.some.injEq] at e
    subst e
    have key : ∀ {ls : List Str}, Balanced ls → ls.head? ≠ some c!")" := by
      intro ls hb
      cases hb with
      | nil => simp
      | item hw _ => simpa using (hw (c!"(", c!")") (by decide)).2
      | group hp _ _ =>
        simp only [pairs, List.mem_cons, Prod.mk.injEq, List.not_mem_nil, or_false] at hp
        rcases hp with ⟨rfl, -⟩ | ⟨rfl, -⟩ | ⟨rfl, -⟩ | ⟨rfl, -⟩ <;> simp
    exact key (hL _ h) rfl
  | _ :: _ :: _, _ => right; simp

theorem name_one {i : Str} {ls : List Str} (h : name i ls) : ∃ w, ls = [w] ∧ IsName w := by
  rcases h with ⟨h1, rfl | rfl⟩
  · exact ⟨_, rfl, i, h1, .inl rfl⟩
  · exact ⟨_, rfl, i, h1, .inr rfl⟩

/-- A type with a name ends with the name. -/
theorem namedAttributed_end {t : AttributedType} {i : Str} {ls : List Str} (h : namedAttributed t i ls) :
    ∃ x w, ls = x ++ [w] ∧ IsName w := by
  match t, h with
  | .mk as t, h =>
    obtain ⟨a, b, rfl, -, c, d, rfl, -, h2, -⟩ := h
    obtain ⟨w, rfl, hw⟩ := name_one h2
    exact ⟨a ++ c, w, by simp, hw⟩

theorem args_end {as : List Argument} {ls : List Str} (h : (argumentList as ⨾ tok c!";") ls) :
    ∃ x, ls = c!"(" :: x ++ [c!")", c!";"] := by
  obtain ⟨_, _, rfl, ⟨_, _, rfl, rfl, x, _, rfl, -, rfl⟩, rfl⟩ := h
  exact ⟨x, by simp⟩

theorem angles_end {A : Lang} {ls : List Str} (h : (angles A ⨾ tok c!";") ls) : ∃ x, ls = c!"<" :: x ++ [c!">", c!";"] := by
  obtain ⟨_, _, rfl, ⟨_, _, rfl, rfl, x, _, rfl, -, rfl⟩, rfl⟩ := h
  exact ⟨x, by simp⟩

theorem constValue_one {v : ConstValue} {ls : List Str} (h : constValue v ls) : ∃ w, ls = [w] ∧ w ≠ c!")" := by
  have key : ∃ w, ls = [w] := by
    match v, h with
    | .boolean true, h => exact ⟨_, h⟩
    | .boolean false, h => exact ⟨_, h⟩
    | .float (.value v), h => exact ⟨_, h.2⟩
    | .float .negInfinity, h => exact ⟨_, h⟩
    | .float .infinity, h => exact ⟨_, h⟩
    | .float .nan, h => exact ⟨_, h⟩
    | .integer (.dec v), h => exact ⟨_, h.2⟩
    | .integer (.hex v), h => exact ⟨_, h.2⟩
    | .integer (.oct v), h => exact ⟨_, h.2⟩
    | .null, h => exact ⟨_, h⟩
  obtain ⟨w, rfl⟩ := key
  refine ⟨w, rfl, fun e => ?_⟩
  rcases single_ne (bal_constValue v) h with h1 | h1
  · exact h1 (by simp [e])
  · simp at h1

/-! ## Types -/

theorem opt_cases {q : Bool} {w : Str} {ls : List Str} (h : optTok q w ls) : ls = [] ∨ ls = [w] := by
  cases q
  · exact .inl h
  · exact .inr h

theorem classify_builtin (b : Builtin) : classifyType [builtinWord b] = .builtin ∧ classifyType [builtinWord b, c!"?"] = .builtin := by
  cases b <;> decide +kernel

theorem classify_nonAny {t : NonAnyType} {ls : List Str} (h : nonAnyType t ls) (ha : ls.head? ≠ some c!"any") :
    classifyType ls = nonAnyKind t := by
  match t, h with
  | .promise r, h =>
    simp only [nonAnyType] at h
    obtain ⟨b, rfl, hb⟩ := tok_seq h
    obtain ⟨b, rfl, -⟩ := tok_seq hb
    simp [classifyType, nonAnyKind]
  | .integer t q, h =>
    simp only [nonAnyType] at h
    obtain ⟨a, b, rfl, h1, h2⟩ := h
    match t, h1 with
    | .longLong u, h1 =>
      obtain ⟨x, y, rfl, h3, h4⟩ := h1
      obtain ⟨y, rfl, h5⟩ := tok_seq h4
      rcases opt_cases h3 with rfl | rfl <;> simp [classifyType, nonAnyKind]
    | .long u, h1 =>
      obtain ⟨x, y, rfl, h3, rfl⟩ := h1
      rcases opt_cases h3 with rfl | rfl <;> simp [classifyType, nonAnyKind]
    | .short u, h1 =>
      obtain ⟨x, y, rfl, h3, rfl⟩ := h1
      rcases opt_cases h3 with rfl | rfl <;> simp [classifyType, nonAnyKind]
  | .floatingPoint t q, h =>
    simp only [nonAnyType] at h
    obtain ⟨a, b, rfl, h1, h2⟩ := h
    match t, h1 with
    | .float u, h1 =>
      obtain ⟨x, y, rfl, h3, rfl⟩ := h1
      rcases opt_cases h3 with rfl | rfl <;> simp [classifyType, nonAnyKind]
    | .double u, h1 =>
      obtain ⟨x, y, rfl, h3, rfl⟩ := h1
      rcases opt_cases h3 with rfl | rfl <;> simp [classifyType, nonAnyKind]
  | .builtin b q, h =>
    simp only [nonAnyType] at h
    obtain ⟨y, rfl, h2⟩ := tok_seq h
    rcases opt_cases h2 with rfl | rfl
    · exact (classify_builtin b).1
    · exact (classify_builtin b).2
  | .sequence t q, h =>
    simp only [nonAnyType] at h
    obtain ⟨_, c, rfl, h1, -⟩ := h
    obtain ⟨b, rfl, hb⟩ := tok_seq h1
    obtain ⟨b, rfl, -⟩ := tok_seq hb
    simp [classifyType, nonAnyKind]
  | .frozenArray t q, h =>
    simp only [nonAnyType] at h
    obtain ⟨_, c, rfl, h1, -⟩ := h
    obtain ⟨b, rfl, hb⟩ := tok_seq h1
    obtain ⟨b, rfl, -⟩ := tok_seq hb
    simp [classifyType, nonAnyKind]
  | .record k v q, h =>
    simp only [nonAnyType] at h
    obtain ⟨_, c, rfl, h1, -⟩ := h
    obtain ⟨b, rfl, hb⟩ := tok_seq h1
    obtain ⟨b, rfl, -⟩ := tok_seq hb
    simp [classifyType, nonAnyKind]
  | .identifier i q, h =>
    simp only [nonAnyType] at h
    obtain ⟨a, b, rfl, ⟨h1, h3⟩, h2⟩ := h
    have hn : ∀ w, (w = i ∧ i ∉ typeWords ∨ w = '_' :: i) → w ∉ typeWords := by
      rintro w (⟨rfl, h⟩ | rfl)
      · exact h
      · intro hm
        have : ∀ w ∈ typeWords, w.head? ≠ some '_' := by decide
        exact this _ hm rfl
    obtain ⟨w, rfl, hw, hp⟩ : ∃ w, a = [w] ∧ w ∉ typeWords ∧ w ≠ c!"(" := by
      rcases h3 with ⟨rfl, h3⟩ | rfl
      · exact ⟨_, rfl, hn _ (.inl ⟨rfl, h3⟩), isName_ne ⟨i, h1, .inl rfl⟩ (c := '(') (by decide) (by decide)⟩
      · exact ⟨_, rfl, hn _ (.inr rfl), by simp⟩
    have hb : (b.head? = none ∨ b.head? = some c!"?") := by rcases opt_cases h2 with rfl | rfl <;> simp
    have hm : ∀ v ∈ typeWords, w ≠ v := fun v hv e => hw (e ▸ hv)
    have hm' : w ∉ builtinWords := fun h => hw ((List.mem_filter.1 h).1)
    have h4 : w ≠ c!"any" := by simpa using ha
    simp only [List.singleton_append, classifyType, hp, h4, if_false, hm _ (by decide : c!"long" ∈ typeWords),
      hm _ (by decide : c!"short" ∈ typeWords), hm _ (by decide : c!"float" ∈ typeWords),
      hm _ (by decide : c!"double" ∈ typeWords), hm', nonAnyKind, false_or]
    rcases hb with hb | hb <;> simp [hb]

theorem classify_type {t : Ty} {ls : List Str} (h : type t ls) : classifyType ls = typeKind t := by
  match t, h with
  | .union ms q, h =>
    simp only [type] at h
    obtain ⟨_, _, rfl, ⟨_, _, rfl, rfl, -⟩, -⟩ := h
    simp [classifyType, typeKind]
  | .single .any, h =>
    simp only [type, singleType] at h
    obtain rfl : ls = [c!"any"] := h
    simp [classifyType, typeKind]
  | .single (.nonAny t), h =>
    simp only [type, singleType] at h
    refine classify_nonAny h.1 fun e => h.2 [c!"any"] (by simp) ?_
    cases ls with
    | nil => cases e
    | cons w ls => simp at e; simp [e]

/-! ## Extended attributes -/

theorem classify_attribute {a : ExtAttr} {ls : List Str} (h : extAttr a ls) : classifyAttribute ls = attrKind a := by
  have nb : ∀ {w : Str}, IsName w → w ≠ c!"(" := fun h => isName_ne h (by decide) (by decide)
  have ns : ∀ {w : Str}, IsName w → w ≠ c!"*" := fun h => isName_ne h (by decide) (by decide)
  match a, h with
  | .argList i args, h =>
    simp only [extAttr] at h
    obtain ⟨w, b, rfl, -, hb⟩ := name_seq h
    obtain ⟨b, rfl, -⟩ := tok_seq hb
    simp [classifyAttribute, attrKind]
  | .namedArgList l r args, h =>
    simp only [extAttr] at h
    obtain ⟨w, b, rfl, -, hb⟩ := name_seq h
    obtain ⟨b, rfl, hb_1⟩ := tok_seq hb
    obtain ⟨v, b, rfl, hv, hb_2⟩ := name_seq hb_1
    obtain ⟨b, rfl, -⟩ := tok_seq hb_2
    simp [classifyAttribute, attrKind, nb hv, ns hv]
  | .identList i is, h =>
    simp only [extAttr] at h
    obtain ⟨w, b, rfl, -, hb⟩ := name_seq h
    obtain ⟨b, rfl, hb_3⟩ := tok_seq hb
    obtain ⟨b, rfl, -⟩ := tok_seq hb_3
    simp [classifyAttribute, attrKind]
  | .ident l (.identifier r), h =>
    simp only [extAttr] at h
    obtain ⟨w, b, rfl, -, hb⟩ := name_seq h
    obtain ⟨b, rfl, hb_4⟩ := tok_seq hb
    obtain ⟨v, rfl, hv⟩ := name_one hb_4
    simp [classifyAttribute, attrKind, nb hv, ns hv]
  | .ident l (.string r), h =>
    simp only [extAttr] at h
    obtain ⟨w, b, rfl, -, hb⟩ := name_seq h
    obtain ⟨b, rfl, hb_5⟩ := tok_seq hb
    obtain ⟨-, rfl⟩ := hb_5
    simp [classifyAttribute, attrKind]
  | .wildcard l, h =>
    simp only [extAttr] at h
    obtain ⟨w, b, rfl, -, hb⟩ := name_seq h
    obtain ⟨b, rfl, rfl⟩ := tok_seq hb
    simp [classifyAttribute, attrKind]
  | .noArgs i, h =>
    simp only [extAttr] at h
    obtain ⟨w, rfl, -⟩ := name_one h
    simp [classifyAttribute, attrKind]

/-! ## Members -/

/-- What the items of an operation begin with. -/
theorem type_async {t : Ty} {ls : List Str} (h : type t ls) (he : ls.head? = some c!"async") :
    ls = [c!"async"] ∨ ls = [c!"async", c!"?"] := by
  match t, h with
  | .union ms q, h =>
    simp only [type] at h
    obtain ⟨_, _, rfl, ⟨_, _, rfl, rfl, -⟩, -⟩ := h
    simp at he
  | .single .any, h =>
    simp only [type, singleType] at h
    obtain rfl : ls = [c!"any"] := h
    simp at he
  | .single (.nonAny t), h =>
    simp only [type, singleType] at h
    replace h := h.1
    match t, h with
    | .identifier i q, h =>
      simp only [nonAnyType] at h
      obtain ⟨a, b, rfl, ⟨h1, h3⟩, h2⟩ := h
      have : a = [c!"async"] := by
        rcases h3 with ⟨rfl, -⟩ | rfl
        · simpa using he
        · simp at he
      subst this
      rcases opt_cases h2 with rfl | rfl <;> simp
    | .promise r, h => simp only [nonAnyType] at h; obtain ⟨b, rfl, hb⟩ := tok_seq h; simp at he
    | .builtin b q, h =>
      simp only [nonAnyType] at h
      obtain ⟨y, rfl, h2⟩ := tok_seq h
      cases b <;> simp [builtinWord] at he
    | .sequence t q, h =>
      simp only [nonAnyType] at h
      obtain ⟨_, c, rfl, h1, -⟩ := h
      obtain ⟨b, rfl, hb⟩ := tok_seq h1
      simp at he
    | .frozenArray t q, h =>
      simp only [nonAnyType] at h
      obtain ⟨_, c, rfl, h1, -⟩ := h
      obtain ⟨b, rfl, hb⟩ := tok_seq h1
      simp at he
    | .record k v q, h =>
      simp only [nonAnyType] at h
      obtain ⟨_, c, rfl, h1, -⟩ := h
      obtain ⟨b, rfl, hb⟩ := tok_seq h1
      simp at he
    | .integer t q, h =>
      simp only [nonAnyType] at h
      obtain ⟨a, b, rfl, h1, h2⟩ := h
      cases t <;> obtain ⟨x, y, rfl, h3, h4⟩ := h1
      · obtain ⟨y, rfl, h5⟩ := tok_seq h4
        rcases opt_cases h3 with rfl | rfl <;> simp at he
      all_goals
        cases h4
        rcases opt_cases h3 with rfl | rfl <;> simp at he
    | .floatingPoint t q, h =>
      simp only [nonAnyType] at h
      obtain ⟨a, b, rfl, h1, h2⟩ := h
      cases t <;> obtain ⟨x, y, rfl, h3, h4⟩ := h1 <;> cases h4 <;> rcases opt_cases h3 with rfl | rfl <;> simp at he

theorem returnType_async {r : ReturnType} {ls : List Str} (h : returnType r ls) (he : ls.head? = some c!"async") :
    ls = [c!"async"] ∨ ls = [c!"async", c!"?"] := by
  match r, h with
  | .undefined, h =>
    simp only [returnType] at h
    obtain rfl : ls = [c!"undefined"] := h
    simp at he
  | .type t, h =>
    simp only [returnType] at h
    exact type_async h.1 he

theorem returnType_head {r : ReturnType} {ls : List Str} (h : returnType r ls) :
    ∃ w ls', ls = w :: ls' ∧ w ≠ c!"[" := by
  match r, h with
  | .undefined, h =>
    simp only [returnType] at h
    obtain rfl : ls = [c!"undefined"] := h
    exact ⟨_, _, rfl, by simp⟩
  | .type t, h =>
    simp only [returnType] at h
    obtain ⟨w, ls', rfl, h1⟩ := type_head h.1
    refine ⟨w, ls', rfl, ?_⟩
    rcases h1 with rfl | h1
    · simp
    · exact isName_ne h1 (by decide) (by decide)

/-- The items of an operation after the modifiers. -/
theorem operation_shape {r : ReturnType} {i : Option Str} {as : List Argument} {ls : List Str}
    (h : (returnNamed r i ⨾ argumentList as ⨾ tok c!";") ls) :
    (∃ x, ls = x ++ [c!")", c!";"]) ∧ (∃ w y, ls = w :: y ∧ w ≠ c!"[") ∧ ¬ [c!"async", c!"iterable", c!"<"] <+: ls := by
  obtain ⟨a, b, rfl, h1, h2⟩ := h
  obtain ⟨x, rfl⟩ := args_end h2
  obtain ⟨c, d, rfl, hc, hd⟩ : ∃ c d, a = c ++ d ∧ returnType r c ∧ (d = [] ∨ ∃ w, d = [w] ∧ IsName w) := by
    match i, h1 with
    | none, h1 => exact ⟨a, [], by simp, h1, .inl rfl⟩
    | some i, h1 =>
      obtain ⟨c, d, rfl, h3, h4, -⟩ := h1
      exact ⟨c, d, rfl, h3, .inr (name_one h4)⟩
  obtain ⟨w, y, rfl, hw⟩ := returnType_head hc
  refine ⟨⟨w :: y ++ d ++ c!"(" :: x, by simp⟩, ⟨w, _, rfl, hw⟩, ?_⟩
  intro hp
  have he : w = c!"async" := by
    obtain ⟨z, e⟩ := hp
    simp at e
    exact e.1.symm
  subst he
  rcases returnType_async hc rfl with e | e <;> rw [e] at hp <;> rcases hd with rfl | ⟨v, rfl, hv⟩ <;> simp at hp

theorem constMember_split {m : ConstMember} {ls : List Str} (h : constMember m ls) :
    ∃ a b w, ls = a ++ (c!"const" :: b ++ [w, c!";"]) ∧ attributes m.attributes a ∧ w ≠ c!")" := by
  obtain ⟨a, b, rfl, ha, hb⟩ := h
  obtain ⟨b, rfl, hb_6⟩ := tok_seq hb
  obtain ⟨x, y, rfl, h1, h2⟩ := hb_6
  obtain ⟨y, rfl, h4⟩ := tok_seq h2
  obtain ⟨z, _, rfl, h3, rfl⟩ := h4
  obtain ⟨w, rfl, hw⟩ := constValue_one h3
  exact ⟨a, x ++ [c!"="], w, by simp, ha, hw⟩

theorem named_split {A : Lang} {t : AttributedType} {i : Str} {ls : List Str} (h : (A ⨾ namedAttributed t i ⨾ tok c!";") ls) :
    ∃ a b w, ls = a ++ (b ++ [w, c!";"]) ∧ A a ∧ IsName w := by
  obtain ⟨a, b, rfl, ha, x, _, rfl, hx, rfl⟩ := h
  obtain ⟨y, w, rfl, hw⟩ := namedAttributed_end hx
  exact ⟨a, y, w, by simp, ha, hw⟩

theorem name_ne_paren {w : Str} (h : IsName w) : w ≠ c!")" := isName_ne h (by decide) (by decide)

theorem modifier_cases {m : Option StringifierOrInheritOrStatic} {c : List Str} (hc : modifier m c) :
    c = [] ∨ c = [c!"stringifier"] ∨ c = [c!"inherit"] ∨ c = [c!"static"] := by
  match m, hc with
  | none, hc => exact .inl hc
  | some .stringifier, hc => exact .inr (.inl hc)
  | some .inherit, hc => exact .inr (.inr (.inl hc))
  | some .static, hc => exact .inr (.inr (.inr hc))

theorem modified_cases {m : Option StringifierOrStatic} {A : Lang} {ls : List Str} (h : modified m A ls) :
    ∃ a b, ls = a ++ b ∧ A b ∧ (a = [] ∨ a = [c!"stringifier"] ∨ a = [c!"static"]) := by
  match m, h with
  | none, h => exact ⟨[], ls, rfl, h.1, .inl rfl⟩
  | some .stringifier, h =>
    obtain ⟨b, rfl, hb⟩ := tok_seq h
    exact ⟨_, b, (List.singleton_append ..).symm, hb, by simp⟩
  | some .static, h =>
    obtain ⟨b, rfl, hb⟩ := tok_seq h
    exact ⟨_, b, (List.singleton_append ..).symm, hb, by simp⟩

theorem specialised_cases {m : Option Special} {A : Lang} {ls : List Str} (h : specialised m A ls) :
    ∃ a b, ls = a ++ b ∧ A b ∧ (a = [] ∨ a = [c!"getter"] ∨ a = [c!"setter"] ∨ a = [c!"deleter"] ∨ a = [c!"legacycaller"]) := by
  match m, h with
  | none, h => exact ⟨[], ls, rfl, h.1, .inl rfl⟩
  | some .getter, h =>
    obtain ⟨b, rfl, hb⟩ := tok_seq h
    exact ⟨_, b, (List.singleton_append ..).symm, hb, by simp⟩
  | some .setter, h =>
    obtain ⟨b, rfl, hb⟩ := tok_seq h
    exact ⟨_, b, (List.singleton_append ..).symm, hb, by simp⟩
  | some .deleter, h =>
    obtain ⟨b, rfl, hb⟩ := tok_seq h
    exact ⟨_, b, (List.singleton_append ..).symm, hb, by simp⟩
  | some .legacyCaller, h =>
    obtain ⟨b, rfl, hb⟩ := tok_seq h
    exact ⟨_, b, (List.singleton_append ..).symm, hb, by simp⟩

/-- An attribute, after its modifiers. -/
theorem attribute_shape {t : AttributedType} {i : Str} {ls : List Str} (h : (tok c!"attribute" ⨾ namedAttributed t i ⨾ tok c!";") ls) :
    ∃ y, ls = c!"attribute" :: y ∧ ∀ p, endsWithParen (p ++ c!"attribute" :: y) = false := by
  obtain ⟨f, rfl, x, _, rfl, hx, rfl⟩ := tok_seq h
  obtain ⟨y, w, rfl, hw⟩ := namedAttributed_end hx
  refine ⟨_, rfl, fun p => ?_⟩
  have := no_paren_end (p ++ c!"attribute" :: y) (name_ne_paren hw)
  simpa using this

theorem angles_shape {A : Lang} {v : Str} {ls : List Str} (h : (tok v ⨾ angles A ⨾ tok c!";") ls) :
    ∃ y, ls = v :: y ∧ ∀ p, endsWithParen (p ++ v :: y) = false := by
  obtain ⟨f, rfl, h_7⟩ := tok_seq h
  obtain ⟨x, rfl⟩ := angles_end h_7
  refine ⟨_, rfl, fun p => ?_⟩
  have := no_paren_end (p ++ v :: c!"<" :: x) (w := c!">") (by decide)
  simpa using this

theorem prefix_iff {p ls : List Str} : p.isPrefixOf ls = true ↔ p <+: ls := List.isPrefixOf_iff_prefix

theorem async_shape {A : Lang} {args : Option (List Argument)} {ls : List Str}
    (h : (tok c!"async" ⨾ tok c!"iterable" ⨾ angles A ⨾ optArgumentList args ⨾ tok c!";") ls) :
    ∃ y, ls = c!"async" :: y ∧ classifyInterface ls = .asyncIterable := by
  obtain ⟨f, rfl, h_8⟩ := tok_seq h
  obtain ⟨f, rfl, h_9⟩ := tok_seq h_8
  refine ⟨_, rfl, ?_⟩
  obtain ⟨a, b, rfl, ha, hb⟩ := h_9
  obtain ⟨_, _, rfl, rfl, x, _, rfl, -, rfl⟩ := ha
  simp only [classifyInterface]
  split
  · simp [List.isPrefixOf]
  · simp [List.isPrefixOf]

theorem kind_interface (m : InterfaceMember) {ls : List Str} (h : interfaceMember m ls) :
    classifyInterface (afterAttributes ls) = interfaceMemberKind m := by
  match m, h with
  | .const m, h =>
    obtain ⟨a, b, w, rfl, ha, hw⟩ := constMember_split h
    rw [after_attributes ha (by simp), classifyInterface, no_paren_end _ hw]
    simp [interfaceMemberKind]
  | .attribute m, h =>
    obtain ⟨a, b, rfl, ha, c, d, rfl, hc, e, f, rfl, he, hf⟩ := h
    obtain ⟨y, rfl, hE⟩ := attribute_shape hf
    have hE := hE (c ++ e)
    rcases modifier_cases hc with rfl | rfl | rfl | rfl <;> rcases opt_cases he with rfl | rfl <;>
    · rw [after_attributes ha (by simp), classifyInterface]
      simp only [List.nil_append, List.cons_append, List.append_assoc, List.append_nil] at hE ⊢
      rw [hE]
      simp [interfaceMemberKind, List.isPrefixOf]
  | .constructor m, h =>
    obtain ⟨a, b, rfl, ha, hb⟩ := h
    obtain ⟨b, rfl, hb_10⟩ := tok_seq hb
    obtain ⟨x, rfl⟩ := args_end hb_10
    have hE := paren_end (c!"constructor" :: c!"(" :: x)
    rw [after_attributes ha (by simp), classifyInterface]
    simp only [List.cons_append] at hE ⊢
    rw [hE]
    simp [interfaceMemberKind, List.isPrefixOf]
  | .operation m, h =>
    obtain ⟨a, b, rfl, ha, hb, hn⟩ := h
    obtain ⟨c, b, rfl, hb_11, hc⟩ := modified_cases hb
    obtain ⟨d, b, rfl, hb_12, hd⟩ := specialised_cases hb_11
    obtain ⟨⟨x, hx⟩, ⟨w, y, hy, hw⟩, hp⟩ := operation_shape hb_12
    have hE : endsWithParen (c ++ (d ++ b)) = true := by
      rw [hx, ← List.append_assoc, ← List.append_assoc]
      exact paren_end _
    have hq : ¬ [c!"async", c!"iterable", c!"<"] <+: c ++ (d ++ b) := by
      rcases hc with rfl | rfl | rfl <;> rcases hd with rfl | rfl | rfl | rfl | rfl <;> first | exact hp | simp
    have hh : (c ++ (d ++ b)).head? ≠ some c!"[" := by
      rcases hc with rfl | rfl | rfl <;> rcases hd with rfl | rfl | rfl | rfl | rfl <;> simp [hy, hw]
    rw [after_attributes ha hh, classifyInterface, hE, if_pos rfl, if_neg, if_neg]
    · rfl
    · rwa [prefix_iff]
    · rw [prefix_iff]
      exact hn _ (by simp)
  | .iterable (.single as t), h =>
    obtain ⟨a, b, rfl, ha, hb⟩ := h
    obtain ⟨y, rfl, hE⟩ := angles_shape hb
    rw [after_attributes ha (by simp), classifyInterface, show endsWithParen (c!"iterable" :: y) = false from hE []]
    simp [interfaceMemberKind, List.isPrefixOf]
  | .iterable (.double as t), h =>
    obtain ⟨a, b, rfl, ha, hb⟩ := h
    obtain ⟨y, rfl, hE⟩ := angles_shape hb
    rw [after_attributes ha (by simp), classifyInterface, show endsWithParen (c!"iterable" :: y) = false from hE []]
    simp [interfaceMemberKind, List.isPrefixOf]
  | .asyncIterable (.single as t args), h =>
    obtain ⟨a, b, rfl, ha, hb⟩ := h
    obtain ⟨y, rfl, hE⟩ := async_shape hb
    rw [after_attributes ha (by simp), hE]
    rfl
  | .asyncIterable (.double as t args), h =>
    obtain ⟨a, b, rfl, ha, hb⟩ := h
    obtain ⟨y, rfl, hE⟩ := async_shape hb
    rw [after_attributes ha (by simp), hE]
    rfl
  | .maplike m, h =>
    obtain ⟨a, b, rfl, ha, c, d, rfl, hc, hb⟩ := h
    obtain ⟨y, rfl, hE⟩ := angles_shape hb
    have hE := hE c
    rcases opt_cases hc with rfl | rfl <;>
    · rw [after_attributes ha (by simp), classifyInterface, hE]
      simp [interfaceMemberKind, List.isPrefixOf]
  | .setlike m, h =>
    obtain ⟨a, b, rfl, ha, c, d, rfl, hc, hb⟩ := h
    obtain ⟨y, rfl, hE⟩ := angles_shape hb
    have hE := hE c
    rcases opt_cases hc with rfl | rfl <;>
    · rw [after_attributes ha (by simp), classifyInterface, hE]
      simp [interfaceMemberKind, List.isPrefixOf]
  | .stringifier m, h =>
    obtain ⟨a, b, rfl, ha, hb⟩ := h
    obtain ⟨b, rfl, rfl⟩ := tok_seq hb
    rw [after_attributes ha (by simp)]
    rfl

theorem operation_mixin {as : Attrs} {a c b : List Str} (ha : attributes as a) (hc : c = [] ∨ c = [c!"stringifier"]) {r : ReturnType}
    {i : Option Str} {args : List Argument} (h : (returnNamed r i ⨾ argumentList args ⨾ tok c!";") b) :
    classifyMixin (afterAttributes (a ++ (c ++ b))) = .operation := by
  obtain ⟨⟨x, hx⟩, ⟨w, y, hy, hw⟩, -⟩ := operation_shape h
  have hh : (c ++ b).head? ≠ some c!"[" := by rcases hc with rfl | rfl <;> simp [hy, hw]
  rw [after_attributes ha hh, classifyMixin, if_pos]
  rw [hx, ← List.append_assoc]
  exact paren_end _

theorem kind_mixin (m : MixinMember) {ls : List Str} (h : mixinMember m ls) :
    classifyMixin (afterAttributes ls) = mixinMemberKind m := by
  match m, h with
  | .const m, h =>
    obtain ⟨a, b, w, rfl, ha, hw⟩ := constMember_split h
    rw [after_attributes ha (by simp), classifyMixin, no_paren_end _ hw]
    simp [mixinMemberKind]
  | .operation m, h =>
    obtain ⟨a, b, rfl, ha, hb⟩ := h
    unfold optWord at hb
    split at hb
    · obtain ⟨b, rfl, hb_13⟩ := tok_seq hb
      exact operation_mixin ha (.inr rfl) hb_13
    · exact operation_mixin ha (.inl rfl) hb.1
  | .attribute m, h =>
    obtain ⟨a, b, rfl, ha, c, d, rfl, hc, e, f, rfl, he, hf⟩ := h
    obtain ⟨y, rfl, hE⟩ := attribute_shape hf
    have hE := hE (c ++ e)
    rcases opt_cases hc with rfl | rfl <;> rcases opt_cases he with rfl | rfl <;>
    · rw [after_attributes ha (by simp), classifyMixin]
      simp only [List.nil_append, List.cons_append, List.append_assoc, List.append_nil] at hE ⊢
      rw [hE]
      simp [mixinMemberKind, List.isPrefixOf]
  | .stringifier m, h =>
    obtain ⟨a, b, rfl, ha, hb⟩ := h
    obtain ⟨b, rfl, rfl⟩ := tok_seq hb
    rw [after_attributes ha (by simp)]
    rfl

theorem kind_namespace (m : NamespaceMember) {ls : List Str} (h : namespaceMember m ls) :
    classifyMixin (afterAttributes ls) = namespaceMemberKind m := by
  match m, h with
  | .const m, h =>
    obtain ⟨a, b, w, rfl, ha, hw⟩ := constMember_split h
    rw [after_attributes ha (by simp), classifyMixin, no_paren_end _ hw]
    simp [namespaceMemberKind]
  | .operation m, h =>
    obtain ⟨a, b, rfl, ha, hb⟩ := h
    exact operation_mixin ha (.inl rfl) hb
  | .attribute m, h =>
    obtain ⟨a, b, rfl, ha, hb⟩ := h
    obtain ⟨b, rfl, hf⟩ := tok_seq hb
    obtain ⟨y, rfl, hE⟩ := attribute_shape hf
    have hE := hE [c!"readonly"]
    rw [after_attributes ha (by simp), classifyMixin]
    simp only [List.nil_append, List.cons_append] at hE ⊢
    rw [hE]
    simp [namespaceMemberKind, List.isPrefixOf]

end Verif.MemberKind
