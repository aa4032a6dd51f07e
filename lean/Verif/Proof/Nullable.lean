import Verif.Spec.Nullable
import Verif.Proof.MemberKind

/-! # Kinds of types from their items -/

namespace Verif.MemberKind
open Spec

theorem endsNullable_append (a : List Str) (q : Bool) {b : List Str} (h : optTok q c!"?" b) (ha : a.getLast? ≠ some c!"?") :
    endsNullable (a ++ b) = q := by
  cases q with
  | false =>
    obtain rfl : b = [] := h
    simp [endsNullable, ha]
  | true =>
    obtain rfl : b = [c!"?"] := h
    simp [endsNullable]

theorem last_angles {A B : Lang} {ls : List Str} (h : (A ⨾ angles B) ls) : ls.getLast? = some c!">" := by
  obtain ⟨_, _, rfl, -, _, _, rfl, rfl, _, _, rfl, -, rfl⟩ := h
  rw [← List.singleton_append, ← List.append_assoc, ← List.append_assoc]
  exact List.getLast?_concat ..

theorem last_parens {B : Lang} {ls : List Str} (h : parens B ls) : ls.getLast? = some c!")" := by
  obtain ⟨_, _, rfl, rfl, _, _, rfl, -, rfl⟩ := h
  rw [← List.append_assoc]
  exact List.getLast?_concat ..

theorem last_integer {t : IntegerType} {ls : List Str} (h : integerType t ls) : ls.getLast? ≠ some c!"?" := by
  match t, h with
  | .longLong _, h => obtain ⟨_, _, rfl, -, _, _, rfl, rfl, rfl⟩ := h; simp
  | .long _, h => obtain ⟨_, _, rfl, -, rfl⟩ := h; simp
  | .short _, h => obtain ⟨_, _, rfl, -, rfl⟩ := h; simp

theorem last_floating {t : FloatingPointType} {ls : List Str} (h : floatingPointType t ls) : ls.getLast? ≠ some c!"?" := by
  match t, h with
  | .float _, h => obtain ⟨_, _, rfl, -, rfl⟩ := h; simp
  | .double _, h => obtain ⟨_, _, rfl, -, rfl⟩ := h; simp

theorem last_typeName {ws : List Str} {i : Str} {ls : List Str} (h : typeName ws i ls) : ls.getLast? ≠ some c!"?" := by
  obtain ⟨h1, h2⟩ := h
  rcases h2 with ⟨rfl, -⟩ | rfl
  · intro e
    exact isName_ne ⟨i, h1, .inl rfl⟩ (c := '?') (by decide) (by decide) (by simpa using e)
  · simp

theorem nullable_nonAny {t : NonAnyType} {ls : List Str} (h : nonAnyType t ls) : endsNullable ls = nullableNonAny t := by
  match t, h with
  | .promise _, h =>
    simp only [nonAnyType] at h
    simp [endsNullable, last_angles h, nullableNonAny]
  | .integer t q, h =>
    simp only [nonAnyType] at h
    obtain ⟨a, b, rfl, h1, h2⟩ := h
    exact endsNullable_append a q h2 (last_integer h1)
  | .floatingPoint t q, h =>
    simp only [nonAnyType] at h
    obtain ⟨a, b, rfl, h1, h2⟩ := h
    exact endsNullable_append a q h2 (last_floating h1)
  | .builtin w q, h =>
    simp only [nonAnyType] at h
    obtain ⟨a, b, rfl, rfl, h2⟩ := h
    exact endsNullable_append _ q h2 (by cases w <;> decide)
  | .sequence t q, h =>
    simp only [nonAnyType] at h
    obtain ⟨a, b, rfl, h1, h2⟩ := h
    exact endsNullable_append a q h2 (by simp [last_angles h1])
  | .frozenArray t q, h =>
    simp only [nonAnyType] at h
    obtain ⟨a, b, rfl, h1, h2⟩ := h
    exact endsNullable_append a q h2 (by simp [last_angles h1])
  | .record k v q, h =>
    simp only [nonAnyType] at h
    obtain ⟨a, b, rfl, h1, h2⟩ := h
    exact endsNullable_append a q h2 (by simp [last_angles h1])
  | .identifier i q, h =>
    simp only [nonAnyType] at h
    obtain ⟨a, b, rfl, h1, h2⟩ := h
    exact endsNullable_append a q h2 (last_typeName h1)

theorem nullable_type {t : Ty} {ls : List Str} (h : type t ls) : endsNullable ls = nullable t := by
  match t, h with
  | .union ms q, h =>
    simp only [type] at h
    obtain ⟨a, b, rfl, h1, h2⟩ := h
    exact endsNullable_append a q h2 (by simp [last_parens h1])
  | .single .any, h =>
    simp only [type, singleType] at h
    obtain rfl : ls = [c!"any"] := h
    rfl
  | .single (.nonAny t), h =>
    simp only [type, singleType] at h
    exact nullable_nonAny h.1

theorem nullable_constType {t : ConstType} {ls : List Str} (h : constType t ls) : endsNullable ls = nullableConst t := by
  match t, h with
  | .integer t q, h =>
    obtain ⟨a, b, rfl, h1, h2⟩ := h
    exact endsNullable_append a q h2 (last_integer h1)
  | .floatingPoint t q, h =>
    obtain ⟨a, b, rfl, h1, h2⟩ := h
    exact endsNullable_append a q h2 (last_floating h1)
  | .boolean q, h =>
    obtain ⟨a, b, rfl, rfl, h2⟩ := h
    exact endsNullable_append _ q h2 (by decide)
  | .byte q, h =>
    obtain ⟨a, b, rfl, rfl, h2⟩ := h
    exact endsNullable_append _ q h2 (by decide)
  | .octet q, h =>
    obtain ⟨a, b, rfl, rfl, h2⟩ := h
    exact endsNullable_append _ q h2 (by decide)
  | .identifier i q, h =>
    obtain ⟨a, b, rfl, h1, h2⟩ := h
    exact endsNullable_append a q h2 (last_typeName h1)

theorem classify_constType {t : ConstType} {ls : List Str} (h : constType t ls) : classifyConst ls = constKind t := by
  match t, h with
  | .integer t q, h =>
    obtain ⟨a, b, rfl, h1, h2⟩ := h
    match t, h1 with
    | .longLong u, h1 =>
      obtain ⟨x, y, rfl, h3, _, _, rfl, rfl, rfl⟩ := h1
      rcases opt_cases h3 with rfl | rfl <;> simp [classifyConst, constKind]
    | .long u, h1 =>
      obtain ⟨x, y, rfl, h3, rfl⟩ := h1
      rcases opt_cases h3 with rfl | rfl <;> simp [classifyConst, constKind]
    | .short u, h1 =>
      obtain ⟨x, y, rfl, h3, rfl⟩ := h1
      rcases opt_cases h3 with rfl | rfl <;> simp [classifyConst, constKind]
  | .floatingPoint t q, h =>
    obtain ⟨a, b, rfl, h1, h2⟩ := h
    match t, h1 with
    | .float u, h1 =>
      obtain ⟨x, y, rfl, h3, rfl⟩ := h1
      rcases opt_cases h3 with rfl | rfl <;> simp [classifyConst, constKind]
    | .double u, h1 =>
      obtain ⟨x, y, rfl, h3, rfl⟩ := h1
      rcases opt_cases h3 with rfl | rfl <;> simp [classifyConst, constKind]
  | .boolean q, h =>
    obtain ⟨a, b, rfl, rfl, h2⟩ := h
    simp [classifyConst, constKind]
  | .byte q, h =>
    obtain ⟨a, b, rfl, rfl, h2⟩ := h
    simp [classifyConst, constKind]
  | .octet q, h =>
    obtain ⟨a, b, rfl, rfl, h2⟩ := h
    simp [classifyConst, constKind]
  | .identifier i q, h =>
    obtain ⟨a, b, rfl, ⟨h1, h3⟩, h2⟩ := h
    let ws : List Str := [c!"long", c!"short", c!"float", c!"double", c!"boolean", c!"byte", c!"octet"]
    obtain ⟨w, rfl, hw⟩ : ∃ w, a = [w] ∧ w ∉ ws := by
      rcases h3 with ⟨rfl, h3⟩ | rfl
      · exact ⟨_, rfl, h3⟩
      · refine ⟨_, rfl, fun hm => ?_⟩
        have : ∀ w ∈ ws, w.head? ≠ some '_' := by decide
        exact this _ hm rfl
    have hb : (b.head? = none ∨ b.head? = some c!"?") := by rcases opt_cases h2 with rfl | rfl <;> simp
    have hm : ∀ v ∈ ws, w ≠ v := fun v hv e => hw (e ▸ hv)
    simp only [List.singleton_append, classifyConst, if_false, hm _ (by decide : c!"long" ∈ ws),
      hm _ (by decide : c!"short" ∈ ws), hm _ (by decide : c!"float" ∈ ws), hm _ (by decide : c!"double" ∈ ws),
      hm _ (by decide : c!"boolean" ∈ ws), hm _ (by decide : c!"byte" ∈ ws), hm _ (by decide : c!"octet" ∈ ws),
      constKind, false_or]
    rcases hb with hb | hb <;> simp [hb]

theorem classify_return {t : ReturnType} {ls : List Str} (h : returnType t ls) :
    (ls.head? = some c!"undefined") = (t = .undefined) := by
  match t, h with
  | .undefined, h =>
    simp only [returnType] at h
    obtain rfl : ls = [c!"undefined"] := h
    simp
  | .type t, h =>
    simp only [returnType] at h
    have h2 := h.2 [c!"undefined"] (by simp)
    refine propext ⟨fun e => absurd ?_ h2, nofun⟩
    cases ls with
    | nil => cases e
    | cons w ls => simp at e; simp [e]

end Verif.MemberKind
