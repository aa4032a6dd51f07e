import Verif.Spec.Attached
import Verif.Proof.AutomatonSync
import Verif.Proof.Pieces

/-! # Extended attributes in front of definitions and members -/

namespace Verif
open Nom Spec

/-- The spellings begin with an item other than `[`. -/
def NoSquare (A : Lang) : Prop := ∀ ls, A ls → ∃ w r, ls = w :: r ∧ w ≠ c!"["

namespace NoSquare

variable {A B : Lang} {i : Str}

theorem tok {w : Str} (h : w ≠ c!"[") : NoSquare (tok w) := by rintro _ rfl; exact ⟨w, [], rfl, h⟩

theorem seq (ha : NoSquare A) : NoSquare (A ⨾ B) := by
  rintro _ ⟨x, y, rfl, h1, -⟩
  obtain ⟨w, r, rfl, h⟩ := ha x h1
  exact ⟨w, r ++ y, rfl, h⟩

theorem eps (hb : NoSquare B) : NoSquare (Spec.eps ⨾ B) := by
  rintro _ ⟨x, y, rfl, rfl, h1⟩
  exact hb y h1

theorem opt {q : Bool} {w : Str} (h : w ≠ c!"[") (hb : NoSquare B) : NoSquare (optTok q w ⨾ B) := by
  cases q
  · exact eps hb
  · exact seq (tok h)

theorem avoiding {ps : List (List Str)} (ha : NoSquare A) : NoSquare (avoiding ps A) := fun ls h => ha ls h.1

theorem name (i : Str) : NoSquare (name i) := by
  rintro ls ⟨h1, h2⟩
  obtain ⟨c, v, rfl, hc, -⟩ := word_iff.1 h1
  have hn : c ≠ '[' := by rintro rfl; exact absurd hc (by decide)
  rcases h2 with rfl | rfl
  · exact ⟨_, [], rfl, by simp [hn]⟩
  · exact ⟨_, [], rfl, by simp⟩

theorem typeName {l : List Str} (i : Str) : NoSquare (typeName l i) := by
  rintro ls ⟨h1, h2⟩
  refine name i ls ⟨h1, ?_⟩
  rcases h2 with ⟨h, -⟩ | h
  · exact .inl h
  · exact .inr h

theorem named (ha : NoSquare A) : NoSquare (named A i) := by
  rintro _ ⟨a, b, rfl, h1, -, -⟩
  obtain ⟨w, r, rfl, h⟩ := ha a h1
  exact ⟨w, r ++ b, rfl, h⟩

theorem optWord {q : Bool} {w : Str} (h : w ≠ c!"[") (ha : NoSquare A) : NoSquare (optWord q w A) := by
  cases q
  · exact avoiding ha
  · exact seq (tok h)

end NoSquare

theorem ns_nonAnyType (t : NonAnyType) : NoSquare (nonAnyType t) := by
  cases t with
  | promise r => simp only [nonAnyType]; exact .seq (.tok (by decide))
  | integer t q =>
    simp only [nonAnyType]
    refine .seq ?_
    cases t with
    | longLong u => exact .opt (by decide) (.seq (.tok (by decide)))
    | long u => exact .opt (by decide) (.tok (by decide))
    | short u => exact .opt (by decide) (.tok (by decide))
  | floatingPoint t q =>
    simp only [nonAnyType]
    refine .seq ?_
    cases t <;> exact .opt (by decide) (.tok (by decide))
  | builtin t q => simp only [nonAnyType]; exact .seq (.tok (by cases t <;> decide))
  | sequence t q => simp only [nonAnyType]; exact .seq (.seq (.tok (by decide)))
  | frozenArray t q => simp only [nonAnyType]; exact .seq (.seq (.tok (by decide)))
  | record k v q => simp only [nonAnyType]; exact .seq (.seq (.tok (by decide)))
  | identifier i q => simp only [nonAnyType]; exact .seq (.typeName i)

theorem ns_type (t : Ty) : NoSquare (type t) := by
  cases t with
  | union ms q => simp only [type]; exact .seq (.seq (.tok (by decide)))
  | single t =>
    simp only [type]
    cases t with
    | any => simp only [singleType]; exact .tok (by decide)
    | nonAny t => simp only [singleType]; exact .avoiding (ns_nonAnyType t)

theorem ns_returnType (t : ReturnType) : NoSquare (returnType t) := by
  cases t with
  | undefined => simp only [returnType]; exact .tok (by decide)
  | type t => simp only [returnType]; exact .avoiding (ns_type t)

theorem ns_returnNamed (t : ReturnType) (i : Option Str) : NoSquare (returnNamed t i) := by
  cases i with
  | none => exact ns_returnType t
  | some i => exact .named (ns_returnType t)

theorem ns_modified {A : Lang} (m : Option StringifierOrStatic) (h : NoSquare A) : NoSquare (modified m A) := by
  rcases m with - | (- | -)
  · exact .avoiding h
  · exact .seq (.tok (by decide))
  · exact .seq (.tok (by decide))

theorem ns_specialised {A : Lang} (m : Option Special) (h : NoSquare A) : NoSquare (specialised m A) := by
  rcases m with - | (- | - | - | -)
  · exact .avoiding h
  all_goals exact .seq (.tok (by decide))

theorem ns_modifier {B : Lang} (m : Option StringifierOrInheritOrStatic) (h : NoSquare B) : NoSquare (modifier m ⨾ B) := by
  rcases m with - | (- | - | -)
  · exact .eps h
  all_goals exact .seq (.tok (by decide))

/-- A spelling consists of the attributes and something else, which does not depend on them. -/
structure Fronted {α : Type} [Attributed α] (L : α → Lang) where
  rest : α → Lang
  split : ∀ a : α, L a = (attributes (attributesOf a) ⨾ rest a)
  same : ∀ (as : Attrs) (a : α), rest (withAttributes as a) = rest a
  set : ∀ (as : Attrs) (a : α), attributesOf (withAttributes as a) = as
  again : ∀ a : α, withAttributes (attributesOf a) a = a
  no : ∀ a, NoSquare (rest a)

def fr_definition : Fronted definition where
  rest
    | .callback _ i r args => tok c!"callback" ⨾ name i ⨾ tok c!"=" ⨾ returnType r ⨾ argumentList args ⨾ tok c!";"
    | .callbackInterface _ i inh ms => tok c!"callback" ⨾ tok c!"interface" ⨾ name i ⨾ inheritance inh ⨾ body interfaceMember ms
    | .interface _ i inh ms => tok c!"interface" ⨾ name i ⨾ inheritance inh ⨾ body interfaceMember ms
    | .interfaceMixin _ i ms => tok c!"interface" ⨾ tok c!"mixin" ⨾ name i ⨾ body mixinMember ms
    | .namespace _ i ms => tok c!"namespace" ⨾ name i ⨾ body namespaceMember ms
    | .dictionary _ i inh ms => tok c!"dictionary" ⨾ name i ⨾ inheritance inh ⨾ body dictionaryMember ms
    | .partialInterface _ i ms => tok c!"partial" ⨾ tok c!"interface" ⨾ name i ⨾ body interfaceMember ms
    | .partialInterfaceMixin _ i ms => tok c!"partial" ⨾ tok c!"interface" ⨾ tok c!"mixin" ⨾ name i ⨾ body mixinMember ms
    | .partialDictionary _ i ms => tok c!"partial" ⨾ tok c!"dictionary" ⨾ name i ⨾ body dictionaryMember ms
    | .partialNamespace _ i ms => tok c!"partial" ⨾ tok c!"namespace" ⨾ name i ⨾ body namespaceMember ms
    | .enum _ i vs => tok c!"enum" ⨾ name i ⨾ braces (enumValues vs) ⨾ tok c!";"
    | .typedef _ t i => tok c!"typedef" ⨾ namedAttributed t i ⨾ tok c!";"
    | .includesStatement _ l r => avoiding [[c!"typedef"]] (name l) ⨾ tok c!"includes" ⨾ name r ⨾ tok c!";"
    | .implements _ l r => avoiding [[c!"typedef"]] (name l) ⨾ tok c!"implements" ⨾ name r ⨾ tok c!";"
  split d := by cases d <;> rfl
  same as d := by cases d <;> rfl
  set as d := by cases d <;> rfl
  again d := by cases d <;> rfl
  no d := by
    cases d <;> first
      | exact .seq (.tok (by decide))
      | exact .seq (.avoiding (.name _))

/-- Everything behind the attributes of a constant. -/
private def constRest (m : ConstMember) : Lang :=
  tok c!"const" ⨾ named (constType m.constType) m.identifier ⨾ tok c!"=" ⨾ constValue m.constValue ⨾ tok c!";"

def fr_interfaceMember : Fronted interfaceMember where
  rest
    | .const m => constRest m
    | .attribute m => modifier m.modifier ⨾ optTok m.readonly c!"readonly" ⨾ tok c!"attribute" ⨾ namedAttributed m.type_ m.identifier ⨾ tok c!";"
    | .constructor m => tok c!"constructor" ⨾ argumentList m.args ⨾ tok c!";"
    | .operation m => avoiding [[c!"constructor", c!"("]]
        (modified m.modifier (specialised m.special (returnNamed m.returnType m.identifier ⨾ argumentList m.args ⨾ tok c!";")))
    | .iterable (.single _ t) => tok c!"iterable" ⨾ angles (attributedType t) ⨾ tok c!";"
    | .iterable (.double _ p) => tok c!"iterable" ⨾ angles (typePair p) ⨾ tok c!";"
    | .asyncIterable (.single _ t args) => tok c!"async" ⨾ tok c!"iterable" ⨾ angles (attributedType t) ⨾ optArgumentList args ⨾ tok c!";"
    | .asyncIterable (.double _ p args) => tok c!"async" ⨾ tok c!"iterable" ⨾ angles (typePair p) ⨾ optArgumentList args ⨾ tok c!";"
    | .maplike m => optTok m.readonly c!"readonly" ⨾ tok c!"maplike" ⨾ angles (typePair m.generics) ⨾ tok c!";"
    | .setlike m => optTok m.readonly c!"readonly" ⨾ tok c!"setlike" ⨾ angles (attributedType m.generics) ⨾ tok c!";"
    | .stringifier _ => tok c!"stringifier" ⨾ tok c!";"
  split m := by rcases m with - | - | - | - | (- | -) | (- | -) | - | - | - <;> rfl
  same as m := by rcases m with - | - | - | - | (- | -) | (- | -) | - | - | - <;> rfl
  set as m := by rcases m with - | - | - | - | (- | -) | (- | -) | - | - | - <;> rfl
  again m := by rcases m with - | - | - | - | (- | -) | (- | -) | - | - | - <;> rfl
  no m := by
    rcases m with - | - | - | - | (- | -) | (- | -) | - | - | - <;> first
      | exact .seq (.tok (by decide))
      | exact ns_modifier _ (.opt (by decide) (.seq (.tok (by decide))))
      | exact .avoiding (ns_modified _ (ns_specialised _ (.seq (ns_returnNamed _ _))))
      | exact .opt (by decide) (.seq (.tok (by decide)))

def fr_mixinMember : Fronted mixinMember where
  rest
    | .const m => constRest m
    | .operation m => optWord m.stringifier c!"stringifier" (returnNamed m.returnType m.identifier ⨾ argumentList m.args ⨾ tok c!";")
    | .attribute m => optTok m.stringifier c!"stringifier" ⨾ optTok m.readonly c!"readonly" ⨾ tok c!"attribute" ⨾
        namedAttributed m.type_ m.identifier ⨾ tok c!";"
    | .stringifier _ => tok c!"stringifier" ⨾ tok c!";"
  split m := by cases m <;> rfl
  same as m := by cases m <;> rfl
  set as m := by cases m <;> rfl
  again m := by cases m <;> rfl
  no m := by
    cases m <;> first
      | exact .seq (.tok (by decide))
      | exact .optWord (by decide) (.seq (ns_returnNamed _ _))
      | exact .opt (by decide) (.opt (by decide) (.seq (.tok (by decide))))

def fr_namespaceMember : Fronted namespaceMember where
  rest
    | .const m => constRest m
    | .operation m => returnNamed m.returnType m.identifier ⨾ argumentList m.args ⨾ tok c!";"
    | .attribute m => tok c!"readonly" ⨾ tok c!"attribute" ⨾ namedAttributed m.type_ m.identifier ⨾ tok c!";"
  split m := by cases m <;> rfl
  same as m := by cases m <;> rfl
  set as m := by cases m <;> rfl
  again m := by cases m <;> rfl
  no m := by
    cases m <;> first
      | exact .seq (.tok (by decide))
      | exact .seq (ns_returnNamed _ _)

def fr_dictionaryMember : Fronted dictionaryMember where
  rest m := optWord m.required c!"required" (named (type m.type_) m.identifier ⨾ default m.default ⨾ tok c!";")
  split m := rfl
  same as m := rfl
  set as m := rfl
  again m := rfl
  no m := .optWord (by decide) (.seq (.named (ns_type _)))

namespace Fronted

variable {α : Type} [Attributed α] {L : α → Lang} (F : Fronted L)
include F

theorem bare {a : α} {ls : List Str} : L (withAttributes none a) ls ↔ F.rest a ls := by
  rw [F.split, F.set, F.same]
  constructor
  · rintro ⟨x, y, rfl, h1, h2⟩
    simp only [attributes] at h1
    cases h1
    exact h2
  · intro h
    exact ⟨[], ls, rfl, by simp only [attributes]; rfl, h⟩

/-- A spelling with attributes. -/
theorem front {a : α} {inside ls : List Str} (hb : Balanced inside) : L a (c!"[" :: (inside ++ [c!"]"]) ++ ls) ↔
    ∃ as, attributesOf a = some as ∧ attributes (some as) (c!"[" :: (inside ++ [c!"]"])) ∧ L (withAttributes none a) ls := by
  simp only [F.bare]
  rw [F.split]
  constructor
  · rintro ⟨x, y, e, h1, h2⟩
    cases h : attributesOf a with
    | none =>
      rw [h] at h1
      simp only [attributes] at h1
      cases h1
      obtain ⟨w, r, rfl, hw⟩ := F.no a y h2
      simp only [List.nil_append, List.cons_append, List.cons.injEq] at e
      exact absurd e.1.symm hw
    | some as =>
      rw [h] at h1
      refine ⟨as, rfl, ?_⟩
      have h3 := h1
      simp only [attributes] at h3
      obtain ⟨_, _, rfl, rfl, m, _, rfl, h4, rfl⟩ := h3
      have hm := bal_extAttrs as m h4
      have e2 : inside ++ c!"]" :: ls = m ++ c!"]" :: y := by simpa using e
      obtain ⟨rfl, rfl⟩ := Auto.balanced_split hb hm ⟨c!"[", by decide⟩ ⟨c!"[", by decide⟩ e2
      exact ⟨h1, h2⟩
  · rintro ⟨as, h1, h2, h3⟩
    exact ⟨_, ls, rfl, h1 ▸ h2, h3⟩

/-- Whether there are attributes. -/
theorem none_iff {a : α} {ls : List Str} (h : L a ls) : attributesOf a = none ↔ ls.head? ≠ some c!"[" := by
  rw [F.split] at h
  obtain ⟨x, y, rfl, h1, h2⟩ := h
  cases ha : attributesOf a with
  | none =>
    rw [ha] at h1
    simp only [attributes] at h1
    cases h1
    obtain ⟨w, r, rfl, hw⟩ := F.no a y h2
    simp [hw]
  | some as =>
    rw [ha] at h1
    simp only [attributes] at h1
    obtain ⟨_, _, rfl, rfl, -⟩ := h1
    simp

end Fronted

end Verif
