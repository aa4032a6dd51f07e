import Verif.Spec.Rearrange
import Verif.Proof.Lists
import Verif.Proof.Pieces

/-!
# Choosing parts of a text

Lemmas for C78.
-/

namespace Verif
open Nom Spec

theorem Spec.OneByOne.get {α β : Type} {R : α → β → Prop} : ∀ {as : List α} {bs : List β}, OneByOne R as bs → ∀ j : Nat,
    (as[j]? = none ∧ bs[j]? = none) ∨ ∃ a b, as[j]? = some a ∧ bs[j]? = some b ∧ R a b
  | _, _, .nil, _ => .inl ⟨rfl, rfl⟩
  | _, _, .cons h _, 0 => .inr ⟨_, _, rfl, rfl, h⟩
  | _, _, .cons _ hs, j + 1 => by simpa using OneByOne.get hs j

theorem Spec.OneByOne.select {α β : Type} {R : α → β → Prop} {as : List α} {bs : List β} (h : OneByOne R as bs) : ∀ js : List Nat,
    OneByOne R (select js as) (select js bs)
  | [] => .nil
  | j :: js => by
    rcases h.get j with ⟨h1, h2⟩ | ⟨a, b, h1, h2, h3⟩
    · simpa [Spec.select, h1, h2] using h.select js
    · simpa [Spec.select, h1, h2] using OneByOne.cons h3 (h.select js)

theorem select_mem {α : Type} {js : List Nat} {xs : List α} {x : α} (h : x ∈ select js xs) : x ∈ xs := by
  simp only [select, List.mem_filterMap] at h
  obtain ⟨j, -, h⟩ := h
  exact List.mem_of_getElem? h

theorem joined_joinWith : ∀ ps, joined ps = joinWith c!"," ps
  | [] => rfl
  | [_] => rfl
  | p :: q :: ps => by rw [joined, joinWith, joined_joinWith (q :: ps)]

theorem orJoined_joinWith : ∀ ps, orJoined ps = joinWith c!"or" ps
  | [] => rfl
  | [_] => rfl
  | p :: q :: ps => by rw [orJoined, joinWith, orJoined_joinWith (q :: ps)]

theorem concat_select {α : Type} {L : α → Lang} (hL : ∀ a ls, L a ls → IsPiece ls) {as : List α} {ls : List Str} (h : concat (as.map L) ls)
    (js : List Nat) : concat ((select js as).map L) (select js (pieces ls)).flatten :=
  concat_pieces ((pieces_concat hL h).select js)

theorem inner_select {d d' : Definition} (hd : withoutMembers d = some d') {m : List Str} (h : inner d m) (js : List Nat) :
    inner (selectMembers js d) (select js (pieces m)).flatten := by
  cases d <;> simp only [withoutMembers, reduceCtorEq, Option.some.injEq] at hd <;> first
    | exact concat_select (fun a ls => piece_member (closed_interfaceMember a) (bal_interfaceMember a)) h js
    | exact concat_select (fun a ls => piece_member (closed_mixinMember a) (bal_mixinMember a)) h js
    | exact concat_select (fun a ls => piece_member (closed_namespaceMember a) (bal_namespaceMember a)) h js
    | exact concat_select (fun a ls => piece_member (closed_dictionaryMember a) (bal_dictionaryMember a)) h js

theorem select_head {d d' : Definition} (hd : withoutMembers d = some d') (js : List Nat) :
    head (selectMembers js d) = head d ∧ withoutMembers (selectMembers js d) = some d' := by
  cases d <;> simp only [withoutMembers, reduceCtorEq, Option.some.injEq] at hd <;> subst hd <;> exact ⟨rfl, rfl⟩

end Verif
