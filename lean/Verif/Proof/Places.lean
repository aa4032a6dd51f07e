import Verif.Spec.Places
import Verif.Proof.Append

/-! # Replacing a part of the lexemes -/

namespace Verif.Places
open Nom Spec

/-- In the spellings in `A` there is a spelling of `b`, after at least `n` lexemes, and with a spelling of `b'` in its place
they are in `K b'`. -/
def Sub {β : Type} (n : Nat) (A : Lang) (M : β → Lang) (b : β) (ok : β → Prop) (K : β → Lang) : Prop :=
  ∀ ls, A ls → ∃ l1 l2 l3, ls = l1 ++ l2 ++ l3 ∧ n ≤ l1.length ∧ M b l2 ∧
    ∀ b' l2', ok b' → M b' l2' → K b' (l1 ++ l2' ++ l3)

section
variable {β : Type} {n : Nat} {A B : Lang} {M : β → Lang} {b : β} {ok : β → Prop} {K : β → Lang}

theorem Sub.self (M : β → Lang) (b : β) (ok : β → Prop) : Sub 0 (M b) M b ok M :=
  fun ls h => ⟨[], ls, [], by simp, Nat.le_refl _, h, fun b' l2' _ h => by simpa using h⟩

theorem Sub.left (h : Sub n A M b ok K) : Sub n (A ⨾ B) M b ok (fun b' => K b' ⨾ B) := by
  rintro _ ⟨x, y, rfl, hx, hy⟩
  obtain ⟨l1, l2, l3, rfl, h1, h2, h3⟩ := h x hx
  exact ⟨l1, l2, l3 ++ y, by simp, h1, h2, fun b' l2' h4 h5 => ⟨_, y, by simp, h3 b' l2' h4 h5, hy⟩⟩

theorem Sub.right (h : Sub n B M b ok K) : Sub n (A ⨾ B) M b ok (fun b' => A ⨾ K b') := by
  rintro _ ⟨x, y, rfl, hx, hy⟩
  obtain ⟨l1, l2, l3, rfl, h1, h2, h3⟩ := h y hy
  exact ⟨x ++ l1, l2, l3, by simp, by simp; omega, h2, fun b' l2' h4 h5 => ⟨x, _, by simp, hx, h3 b' l2' h4 h5⟩⟩

theorem Sub.after (hA : ∀ ls, A ls → ls ≠ []) (h : Sub n B M b ok K) : Sub (n + 1) (A ⨾ B) M b ok (fun b' => A ⨾ K b') := by
  rintro _ ⟨x, y, rfl, hx, hy⟩
  obtain ⟨l1, l2, l3, rfl, h1, h2, h3⟩ := h y hy
  have := List.length_pos_iff.2 (hA x hx)
  exact ⟨x ++ l1, l2, l3, by simp, by simp; omega, h2, fun b' l2' h4 h5 => ⟨x, _, by simp, hx, h3 b' l2' h4 h5⟩⟩

theorem Sub.weaken {m : Nat} (h : Sub n A M b ok K) (hm : m ≤ n) : Sub m A M b ok K := fun ls hl => by
  obtain ⟨l1, l2, l3, h0, h1, h2, h3⟩ := h ls hl
  exact ⟨l1, l2, l3, h0, by omega, h2, h3⟩

theorem Sub.mono {K' : β → Lang} (h : Sub n A M b ok K) (hK : ∀ b' ls, ok b' → K b' ls → K' b' ls) : Sub n A M b ok K' := fun ls hl => by
  obtain ⟨l1, l2, l3, h0, h1, h2, h3⟩ := h ls hl
  exact ⟨l1, l2, l3, h0, h1, h2, fun b' l2' h4 h5 => hK b' _ h4 (h3 b' l2' h4 h5)⟩

theorem Sub.narrow {ok' : β → Prop} (h : Sub n A M b ok K) (ho : ∀ b', ok' b' → ok b') : Sub n A M b ok' K := fun ls hl => by
  obtain ⟨l1, l2, l3, h0, h1, h2, h3⟩ := h ls hl
  exact ⟨l1, l2, l3, h0, h1, h2, fun b' l2' h4 h5 => h3 b' l2' (ho b' h4) h5⟩

/-- What a spelling must not begin with is in front of the part. -/
theorem Sub.avoiding {ps : List (List Str)} (hp : ∀ p ∈ ps, p.length ≤ n) (h : Sub n A M b ok K) :
    Sub n (avoiding ps A) M b ok (fun b' => avoiding ps (K b')) := by
  rintro ls ⟨hl, ha⟩
  obtain ⟨l1, l2, l3, rfl, h1, h2, h3⟩ := h ls hl
  refine ⟨l1, l2, l3, rfl, h1, h2, fun b' l2' h4 h5 => ⟨h3 b' l2' h4 h5, fun p hpp h6 => ha p hpp ?_⟩⟩
  have : p <+: l1 := by
    rw [List.append_assoc] at h6
    exact List.prefix_of_prefix_length_le h6 (List.prefix_append ..) (Nat.le_trans (hp p hpp) h1)
  rw [List.append_assoc]
  exact this.trans (List.prefix_append ..)

/-- No spelling of a possible value begins with what must not stand there. -/
theorem Sub.start {ps : List (List Str)} (h : Sub n A M b ok K)
    (hk : ∀ b' ls, ok b' → K b' ls → ∀ p ∈ ps, ¬ p <+: ls) :
    Sub n (Spec.avoiding ps A) M b ok (fun b' => Spec.avoiding ps (K b')) := by
  rintro ls ⟨hl, -⟩
  obtain ⟨l1, l2, l3, rfl, h1, h2, h3⟩ := h ls hl
  exact ⟨l1, l2, l3, rfl, h1, h2, fun b' l2' h4 h5 => ⟨h3 b' l2' h4 h5, hk b' _ h4 (h3 b' l2' h4 h5)⟩⟩

theorem twoWords_last : ∀ p ∈ twoWordTypes, ∃ a, ∃ w ∈ lastWords, p = a ++ [w] := by
  intro p hp
  simp only [twoWordTypes, List.mem_cons, List.not_mem_nil, or_false] at hp
  rcases hp with rfl | rfl | rfl | rfl | rfl | rfl
  · exact ⟨[_], _, by decide, rfl⟩
  · exact ⟨[_], _, by decide, rfl⟩
  · exact ⟨[_], _, by decide, rfl⟩
  · exact ⟨[_, _], _, by decide, rfl⟩
  · exact ⟨[_], _, by decide, rfl⟩
  · exact ⟨[_], _, by decide, rfl⟩

theorem lastWords_plain : ∀ w ∈ lastWords, w.head? ≠ some '_' := by decide

theorem name_apart {i : Str} (hi : i ∉ lastWords) {a x : List Str} (h : name i x) : a ++ x ∉ twoWordTypes := by
  intro h1
  obtain ⟨a', w, hw, h2⟩ := twoWords_last _ h1
  rcases h.2 with rfl | rfl
  · have := (List.append_inj' h2 rfl).2
    simp at this
    exact hi (this ▸ hw)
  · have := (List.append_inj' h2 rfl).2
    simp at this
    exact lastWords_plain w hw (this ▸ rfl)

theorem named_iff {T : Lang} {i : Str} (hi : i ∉ lastWords) (ls : List Str) : named T i ls ↔ (T ⨾ name i) ls :=
  ⟨fun ⟨a, x, h1, h2, h3, _⟩ => ⟨a, x, h1, h2, h3⟩, fun ⟨a, x, h1, h2, h3⟩ => ⟨a, x, h1, h2, h3, name_apart hi h3⟩⟩

theorem named_eq {T : Lang} {i : Str} (hi : i ∉ lastWords) : named T i = (T ⨾ name i) :=
  funext fun ls => propext (named_iff hi ls)

theorem Sub.concat {As Cs : List Lang} (h : Sub n A M b ok K) :
    Sub n (Spec.concat (As ++ A :: Cs)) M b ok (fun b' => Spec.concat (As ++ K b' :: Cs)) := by
  induction As with
  | nil => exact h.left
  | cons X As ih => exact ih.right

theorem Sub.sepBy {sep : Lang} {As Cs : List Lang} (h : Sub n A M b ok K) :
    Sub n (Spec.sepBy sep (As ++ A :: Cs)) M b ok (fun b' => Spec.sepBy sep (As ++ K b' :: Cs)) := by
  induction As with
  | nil =>
    cases Cs with
    | nil => exact h
    | cons C Cs => exact h.left
  | cons X As ih =>
    cases As with
    | nil => exact ih.right.right
    | cons Y As => exact ih.right.right

theorem Sub.trans {γ : Type} {N : γ → Lang} {c : γ} {put : γ → β} {ok' : γ → Prop} (h : Sub n A M b ok K)
    (h' : Sub 0 (M b) N c ok' (fun c' => M (put c'))) :
    Sub n A N c (fun c' => ok' c' ∧ ok (put c')) (fun c' => K (put c')) := by
  intro ls hl
  obtain ⟨l1, l2, l3, rfl, h1, h2, h3⟩ := h ls hl
  obtain ⟨m1, m2, m3, rfl, -, h4, h5⟩ := h' l2 h2
  refine ⟨l1 ++ m1, m2, m3 ++ l3, by simp, by simp; omega, h4, fun c' l h6 h7 => ?_⟩
  have := h3 _ _ h6.2 (h5 c' l h6.1 h7)
  simpa using this

end

theorem sub_items {α : Type} (L : α → Lang) (as bs cs : List α) :
    Sub 0 (all L (as ++ bs ++ cs)) (all L) bs (fun _ => True) (fun bs' => all L (as ++ bs' ++ cs)) := by
  intro ls h
  simp only [all, List.map_append] at h
  obtain ⟨x, l3, rfl, h1, h2⟩ := concat_split h
  obtain ⟨l1, l2, rfl, h3, h4⟩ := concat_split h1
  refine ⟨l1, l2, l3, rfl, Nat.zero_le _, h4, fun bs' l2' _ h5 => ?_⟩
  simp only [all, List.map_append]
  exact concat_append (concat_append h3 h5) h2

/-! ## First lexemes -/

theorem head_seq {A B : Lang} {w : Str} {ls : List Str} (h : (A ⨾ B) ls) (hA : ∀ ls, A ls → ls ≠ []) (hw : [w] <+: ls) :
    ∃ x, A x ∧ [w] <+: x := by
  obtain ⟨x, y, rfl, hx, -⟩ := h
  refine ⟨x, hx, ?_⟩
  cases x with
  | nil => exact absurd rfl (hA _ hx)
  | cons v x => simpa using hw

theorem tok_ne {w : Str} : ∀ ls, tok w ls → ls ≠ [] := by rintro _ rfl; simp

theorem head_tok {w v : Str} {ls : List Str} (h : tok v ls) (hw : [w] <+: ls) : w = v := by
  cases h; simpa using hw

theorem seq_ne {A B : Lang} (hA : ∀ ls, A ls → ls ≠ []) : ∀ ls, (A ⨾ B) ls → ls ≠ [] := by
  rintro _ ⟨x, y, rfl, hx, -⟩
  have := hA x hx
  simp [this]

/-- The words, other than names, that a type begins with. -/
def typeStarts : List Str :=
  [c!"(", c!"any", c!"Promise", c!"unsigned", c!"unrestricted", c!"sequence", c!"FrozenArray", c!"record"] ++ typeWords

/-- Without those of the builtin types, unions and `any`. -/
def phraseStarts : List Str :=
  [c!"Promise", c!"unsigned", c!"unrestricted", c!"sequence", c!"FrozenArray", c!"record", c!"long", c!"short", c!"float",
   c!"double"]

theorem head_opt {u : Bool} {v w : Str} {A : Lang} {ls : List Str} (h : (optTok u v ⨾ A) ls) (hA : ∀ ls, A ls → ls ≠ [])
    (hw : [w] <+: ls) : w = v ∨ ∃ x, A x ∧ [w] <+: x := by
  cases u with
  | true =>
    obtain ⟨x, h1, h2⟩ := head_seq h tok_ne hw
    exact .inl (head_tok h1 h2)
  | false =>
    obtain ⟨x, y, rfl, hx, hy⟩ := h
    cases hx
    exact .inr ⟨y, hy, hw⟩

theorem integerType_ne {t : IntegerType} : ∀ ls, integerType t ls → ls ≠ [] := by
  rintro ls h rfl
  cases t <;> (obtain ⟨x, y, h1, -, h2⟩ := h; simp at h1; obtain ⟨rfl, rfl⟩ := h1)
  · exact seq_ne tok_ne _ h2 rfl
  · exact tok_ne _ h2 rfl
  · exact tok_ne _ h2 rfl

theorem floatingPointType_ne {t : FloatingPointType} : ∀ ls, floatingPointType t ls → ls ≠ [] := by
  rintro ls h rfl
  cases t <;> (obtain ⟨x, y, h1, -, h2⟩ := h; simp at h1; obtain ⟨rfl, rfl⟩ := h1; exact tok_ne _ h2 rfl)

theorem nonAnyType_start {t : NonAnyType} {w : Str} {ls : List Str} (h : nonAnyType t ls) (hw : [w] <+: ls) :
    w ∈ phraseStarts ∨ (∃ b q, t = .builtin b q ∧ w = builtinWord b) ∨ (∃ i q, t = .identifier i q ∧ w = '_' :: i) ∨
      ∃ q, t = .identifier w q ∧ w ∉ typeWords := by
  cases t with
  | promise r =>
    simp only [nonAnyType] at h
    obtain ⟨x, h1, h2⟩ := head_seq h tok_ne hw
    obtain rfl := head_tok h1 h2
    exact .inl (by decide)
  | integer t q =>
    simp only [nonAnyType] at h
    obtain ⟨x, h1, h2⟩ := head_seq h integerType_ne hw
    left
    cases t with
    | longLong u =>
      rcases head_opt h1 (seq_ne tok_ne) h2 with rfl | ⟨y, h3, h4⟩
      · decide
      · obtain ⟨z, h5, h6⟩ := head_seq h3 tok_ne h4
        obtain rfl := head_tok h5 h6
        decide
    | long u =>
      rcases head_opt h1 tok_ne h2 with rfl | ⟨y, h3, h4⟩
      · decide
      · obtain rfl := head_tok h3 h4
        decide
    | short u =>
      rcases head_opt h1 tok_ne h2 with rfl | ⟨y, h3, h4⟩
      · decide
      · obtain rfl := head_tok h3 h4
        decide
  | floatingPoint t q =>
    simp only [nonAnyType] at h
    obtain ⟨x, h1, h2⟩ := head_seq h floatingPointType_ne hw
    left
    cases t <;> rcases head_opt h1 tok_ne h2 with rfl | ⟨y, h3, h4⟩ <;> first | decide | (obtain rfl := head_tok h3 h4; decide)
  | builtin b q =>
    simp only [nonAnyType] at h
    obtain ⟨x, h1, h2⟩ := head_seq h tok_ne hw
    obtain rfl := head_tok h1 h2
    exact .inr (.inl ⟨b, q, rfl, rfl⟩)
  | sequence t q =>
    simp only [nonAnyType] at h
    obtain ⟨x, h1, h2⟩ := head_seq h (seq_ne tok_ne) hw
    obtain ⟨x, h1, h2⟩ := head_seq h1 tok_ne h2
    obtain rfl := head_tok h1 h2
    exact .inl (by decide)
  | frozenArray t q =>
    simp only [nonAnyType] at h
    obtain ⟨x, h1, h2⟩ := head_seq h (seq_ne tok_ne) hw
    obtain ⟨x, h1, h2⟩ := head_seq h1 tok_ne h2
    obtain rfl := head_tok h1 h2
    exact .inl (by decide)
  | record k v q =>
    simp only [nonAnyType] at h
    obtain ⟨x, h1, h2⟩ := head_seq h (seq_ne tok_ne) hw
    obtain ⟨x, h1, h2⟩ := head_seq h1 tok_ne h2
    obtain rfl := head_tok h1 h2
    exact .inl (by decide)
  | identifier i q =>
    simp only [nonAnyType] at h
    obtain ⟨x, h1, h2⟩ := head_seq h (by rintro _ ⟨-, ⟨rfl, -⟩ | rfl⟩ <;> simp) hw
    obtain ⟨-, ⟨rfl, h1⟩ | rfl⟩ := h1
    · simp at h2
      exact .inr (.inr (.inr ⟨q, by rw [h2], h2 ▸ h1⟩))
    · simp at h2
      exact .inr (.inr (.inl ⟨i, q, rfl, h2⟩))

theorem nonAnyType_ne {t : NonAnyType} : ∀ ls, nonAnyType t ls → ls ≠ [] := by
  intro ls h
  cases t <;> simp only [nonAnyType] at h
  · exact seq_ne tok_ne _ h
  · exact seq_ne integerType_ne _ h
  · exact seq_ne floatingPointType_ne _ h
  · exact seq_ne tok_ne _ h
  · exact seq_ne (seq_ne tok_ne) _ h
  · exact seq_ne (seq_ne tok_ne) _ h
  · exact seq_ne (seq_ne tok_ne) _ h
  · refine seq_ne ?_ _ h
    rintro _ ⟨-, ⟨rfl, -⟩ | rfl⟩ <;> simp

theorem phraseStarts_sub : ∀ w ∈ phraseStarts, w ∈ typeStarts := by decide

theorem builtin_start (b : Builtin) : builtinWord b ∈ typeStarts := by cases b <;> decide

theorem type_start {t : Ty} {w : Str} {ls : List Str} (h : type t ls) (hw : [w] <+: ls) :
    w ∈ typeStarts ∨ w.head? = some '_' ∨ plainName t = some w := by
  cases t with
  | single t =>
    cases t with
    | any =>
      simp only [type, singleType] at h
      obtain rfl := head_tok h hw
      exact .inl (by decide)
    | nonAny t =>
      simp only [type, singleType] at h
      rcases nonAnyType_start h.1 hw with h | ⟨b, q, rfl, rfl⟩ | ⟨i, q, rfl, rfl⟩ | ⟨q, rfl, -⟩
      · exact .inl (phraseStarts_sub w h)
      · exact .inl (builtin_start b)
      · exact .inr (.inl rfl)
      · exact .inr (.inr rfl)
  | union ms q =>
    simp only [type] at h
    obtain ⟨x, h1, h2⟩ := head_seq h (seq_ne tok_ne) hw
    obtain ⟨x, h1, h2⟩ := head_seq h1 tok_ne h2
    obtain rfl := head_tok h1 h2
    exact .inl (by decide)

theorem type_ne {t : Ty} : ∀ ls, type t ls → ls ≠ [] := by
  intro ls h
  cases t with
  | single t =>
    cases t <;> simp only [type, singleType] at h
    · exact tok_ne _ h
    · exact nonAnyType_ne _ h.1
  | union ms q =>
    simp only [type] at h
    exact seq_ne (seq_ne tok_ne) _ h

/-- A type that is not just a name begins with none of the words `ws`. -/
theorem type_avoids {ws : List Str} (hs : ∀ w ∈ ws, w ∉ typeStarts ∧ w.head? ≠ some '_') {t : Ty} (ht : NotNamed ws t)
    {ls : List Str} (h : type t ls) : ∀ w ∈ ws, ¬ [w] <+: ls := fun w hw hp => by
  rcases type_start h hp with h | h | h
  · exact (hs w hw).1 h
  · exact (hs w hw).2 h
  · exact ht w hw h

theorem returnType_ne {r : ReturnType} : ∀ ls, returnType r ls → ls ≠ [] := by
  intro ls h
  cases r <;> simp only [returnType] at h
  · exact tok_ne _ h
  · exact type_ne _ h.1

theorem returnType_avoids {ws : List Str} (hs : ∀ w ∈ ws, w ∉ c!"undefined" :: typeStarts ∧ w.head? ≠ some '_') {r : ReturnType}
    (hr : NotNamedReturn ws r) {ls : List Str} (h : returnType r ls) : ∀ w ∈ ws, ¬ [w] <+: ls := by
  cases r with
  | undefined =>
    simp only [returnType] at h
    intro w hw hp
    obtain rfl := head_tok h hp
    exact (hs _ hw).1 (.head _)
  | type t =>
    simp only [returnType] at h
    exact type_avoids (fun w hw => ⟨fun h => (hs w hw).1 (.tail _ h), (hs w hw).2⟩) hr h.1

theorem prefix_left {w : Str} {a b : List Str} (ha : a ≠ []) (h : [w] <+: a ++ b) : [w] <+: a := by
  cases a with
  | nil => exact absurd rfl ha
  | cons v a => simpa using h

/-! ## The places -/

/-- finds the part in a sequence -/
macro "hole" : tactic => `(tactic| repeat' (first | with_reducible exact Sub.self _ _ _ | with_reducible refine Sub.left ?_ | with_reducible refine Sub.right ?_))

theorem unionMembers_map (ms : List UnionMember) : unionMembers ms = ms.map unionMember := by
  induction ms with
  | nil => rfl
  | cons a as ih => simp [unionMembers, ih]

theorem sub_definitionAttributes (d : Definition) :
    Sub 0 (definition d) attributes (attributesOf d) (fun _ => True) (fun as => definition (withAttributes as d)) := by
  cases d <;> simp only [definition, attributesOf, withAttributes] <;> exact (Sub.self _ _ _).left

theorem sub_interfaceMemberAttributes (m : InterfaceMember) :
    Sub 0 (interfaceMember m) attributes (interfaceMemberAttributes m) (fun _ => True)
      (fun as => interfaceMember (interfaceMemberWith as m)) := by
  cases m with
  | iterable m => cases m <;> exact (Sub.self _ _ _).left
  | asyncIterable m => cases m <;> exact (Sub.self _ _ _).left
  | _ => exact (Sub.self _ _ _).left

theorem sub_mixinMemberAttributes (m : MixinMember) :
    Sub 0 (mixinMember m) attributes (mixinMemberAttributes m) (fun _ => True)
      (fun as => mixinMember (mixinMemberWith as m)) := by
  cases m <;> exact (Sub.self _ _ _).left

theorem sub_namespaceMemberAttributes (m : NamespaceMember) :
    Sub 0 (namespaceMember m) attributes (namespaceMemberAttributes m) (fun _ => True)
      (fun as => namespaceMember (namespaceMemberWith as m)) := by
  cases m <;> exact (Sub.self _ _ _).left

theorem returnNamed_ne {r : ReturnType} {i : Option Str} : ∀ ls, returnNamed r i ls → ls ≠ [] := by
  intro ls h
  cases i with
  | none => exact returnType_ne _ h
  | some i =>
    obtain ⟨x, y, rfl, h, -⟩ := h
    simp [returnType_ne _ h]

theorem returnNamed_sub {ok : ReturnType → Prop} {r : ReturnType} {i : Option Str} (hi : ∀ j, i = some j → j ∉ lastWords) :
    Sub 0 (returnNamed r i) returnType r ok (fun r' => returnNamed r' i) := by
  cases i with
  | none => exact Sub.self _ _ _
  | some i =>
    simp only [returnNamed, named_eq (hi i rfl)]
    exact (Sub.self _ _ _).left

theorem returnNamed_start {r : ReturnType} {i : Option Str} {w : Str} {ls : List Str} (h : returnNamed r i ls) (hw : [w] <+: ls) :
    ∃ x, returnType r x ∧ [w] <+: x := by
  cases i with
  | none => exact ⟨ls, h, hw⟩
  | some i =>
    obtain ⟨x, y, rfl, h, -⟩ := h
    exact ⟨x, h, prefix_left (returnType_ne _ h) hw⟩

theorem argumentList_ne {args : List Argument} : ∀ ls, argumentList args ls → ls ≠ [] := seq_ne tok_ne

theorem named_ne {T : Lang} (hT : ∀ ls, T ls → ls ≠ []) {i : Str} : ∀ ls, named T i ls → ls ≠ [] := by
  rintro _ ⟨x, y, rfl, h, -⟩
  simp [hT _ h]

theorem sub_argumentList {args : List Argument} {ok : List Argument → Prop} {B : Lang} :
    Sub 0 (argumentList args ⨾ B) argumentList args ok (fun args' => argumentList args' ⨾ B) := (Sub.self _ _ _).left

/-- What a spelling must not begin with ends at most one lexeme into the part, which always begins with the same lexeme. -/
theorem Sub.avoidingHead {β : Type} {n : Nat} {A : Lang} {M : β → Lang} {b : β} {ok : β → Prop} {K : β → Lang} {v : Str}
    {ps : List (List Str)} (hM : ∀ b l, M b l → ∃ l', l = v :: l') (hp : ∀ p ∈ ps, p.length ≤ n + 1) (h : Sub n A M b ok K) :
    Sub n (Spec.avoiding ps A) M b ok (fun b' => Spec.avoiding ps (K b')) := by
  rintro ls ⟨hl, ha⟩
  obtain ⟨l1, l2, l3, rfl, h1, h2, h3⟩ := h ls hl
  refine ⟨l1, l2, l3, rfl, h1, h2, fun b' l2' h4 h5 => ⟨h3 b' l2' h4 h5, fun p hpp h6 => ha p hpp ?_⟩⟩
  obtain ⟨x, rfl⟩ := hM b l2 h2
  obtain ⟨y, rfl⟩ := hM b' l2' h5
  have : p <+: l1 ++ [v] := by
    refine List.prefix_of_prefix_length_le h6 ⟨y ++ l3, by simp⟩ ?_
    have := hp p hpp
    simp; omega
  exact this.trans ⟨x ++ l3, by simp⟩

theorem argumentList_open (args : List Argument) (ls : List Str) (h : argumentList args ls) : ∃ l, ls = c!"(" :: l := by
  obtain ⟨_, y, rfl, rfl, -⟩ := h
  exact ⟨y, rfl⟩

theorem Sub.specialised {β : Type} {n : Nat} {A : Lang} {M : β → Lang} {b : β} {ok : β → Prop} {K : β → Lang}
    (h : Sub (n + 1) A M b ok K) (s : Option Special) : Sub (n + 1) (specialised s A) M b ok (fun b' => specialised s (K b')) := by
  unfold Spec.specialised
  split
  · exact h.avoiding (by simp)
  all_goals exact h.right

theorem Sub.modified {β : Type} {n : Nat} {A : Lang} {M : β → Lang} {b : β} {ok : β → Prop} {K : β → Lang}
    (h : Sub (n + 1) A M b ok K) (s : Option StringifierOrStatic) :
    Sub (n + 1) (modified s A) M b ok (fun b' => modified s (K b')) := by
  unfold Spec.modified
  split
  · exact h.avoiding (by simp)
  all_goals exact h.right

theorem Sub.optWord {β : Type} {n : Nat} {A : Lang} {M : β → Lang} {b : β} {ok : β → Prop} {K : β → Lang}
    (h : Sub (n + 1) A M b ok K) (c : Bool) (w : Str) :
    Sub (n + 1) (optWord c w A) M b ok (fun b' => optWord c w (K b')) := by
  unfold Spec.optWord
  split
  · exact h.right
  · exact h.avoiding (by simp)

theorem sub_interfaceArguments (m : OperationInterfaceMember) :
    Sub 0 (interfaceMember (.operation m)) argumentList m.args (fun _ => True)
      (fun args => interfaceMember (.operation { m with args })) := by
  simp only [interfaceMember, operationInterfaceMember]
  have h0 : Sub 1 (returnNamed m.returnType m.identifier ⨾ argumentList m.args ⨾ tok c!";") argumentList m.args (fun _ => True)
      (fun args => returnNamed m.returnType m.identifier ⨾ argumentList args ⨾ tok c!";") :=
    sub_argumentList.after returnNamed_ne
  exact ((((h0.specialised m.special).modified m.modifier).avoidingHead (ps := [[c!"constructor", c!"("]]) argumentList_open (by simp)).right).weaken (Nat.zero_le _)

theorem sub_mixinArguments (m : OperationMixinMember) :
    Sub 0 (mixinMember (.operation m)) argumentList m.args (fun _ => True)
      (fun args => mixinMember (.operation { m with args })) := by
  simp only [mixinMember, operationMixinMember]
  have h0 : Sub 1 (returnNamed m.returnType m.identifier ⨾ argumentList m.args ⨾ tok c!";") argumentList m.args (fun _ => True)
      (fun args => returnNamed m.returnType m.identifier ⨾ argumentList args ⨾ tok c!";") :=
    sub_argumentList.after returnNamed_ne
  exact ((h0.optWord _ _).right).weaken (Nat.zero_le _)

/-- The words in front of an operation, and `constructor`. -/
def operationWords : List Str :=
  [c!"stringifier", c!"static", c!"getter", c!"setter", c!"deleter", c!"legacycaller", c!"constructor"]

theorem operationWords_start : ∀ w ∈ operationWords, w ∉ c!"undefined" :: typeStarts ∧ w.head? ≠ some '_' := by decide

theorem operation_start {r : ReturnType} (hr : NotNamedReturn operationWords r) {i : Option Str} {B : Lang} {ls : List Str}
    (h : (returnNamed r i ⨾ B) ls) : ∀ w ∈ operationWords, ¬ [w] <+: ls := by
  intro w hw hp
  obtain ⟨x, h1, h2⟩ := head_seq h returnNamed_ne hp
  obtain ⟨x, h1, h2⟩ := returnNamed_start h1 h2
  exact returnType_avoids operationWords_start hr h1 w hw h2

theorem specialised_start {r : ReturnType} (hr : NotNamedReturn operationWords r) {i : Option Str} {B : Lang} {s : Option Special}
    {ls : List Str} (h : (specialised s (returnNamed r i ⨾ B)) ls) :
    ∀ w ∈ [c!"stringifier", c!"static", c!"constructor"], ¬ [w] <+: ls := by
  intro w hw hp
  rcases s with - | - | - | - | -
  · exact operation_start hr h.1 w (by revert hw; simp [operationWords]; rintro (rfl | rfl | rfl) <;> simp) hp
  all_goals
    obtain ⟨x, h1, h2⟩ := head_seq h tok_ne hp
    obtain rfl := head_tok h1 h2
    revert hw
    decide

theorem modified_start {r : ReturnType} (hr : NotNamedReturn operationWords r) {i : Option Str} {B : Lang} {s : Option Special}
    {m : Option StringifierOrStatic} {ls : List Str} (h : (modified m (specialised s (returnNamed r i ⨾ B))) ls) :
    ¬ [c!"constructor", c!"("] <+: ls := by
  intro hp
  have hp : [c!"constructor"] <+: ls := List.IsPrefix.trans ⟨[c!"("], rfl⟩ hp
  rcases m with - | - | -
  · exact specialised_start hr h.1 _ (by simp) hp
  all_goals
    obtain ⟨x, h1, h2⟩ := head_seq h tok_ne hp
    have := head_tok h1 h2
    revert this
    decide

theorem sub_interfaceReturn (m : OperationInterfaceMember) (hi : ∀ i, m.identifier = some i → i ∉ lastWords) :
    Sub 0 (interfaceMember (.operation m)) returnType m.returnType (NotNamedReturn operationWords)
      (fun r => interfaceMember (.operation { m with returnType := r })) := by
  simp only [interfaceMember, operationInterfaceMember]
  refine .right ?_
  refine Sub.start ?_ fun r ls hr hl p hp => ?_
  · unfold modified
    have h0 : Sub 0 (specialised m.special (returnNamed m.returnType m.identifier ⨾ argumentList m.args ⨾ tok c!";")) returnType
        m.returnType (NotNamedReturn operationWords)
        (fun r => specialised m.special (returnNamed r m.identifier ⨾ argumentList m.args ⨾ tok c!";")) := by
      unfold specialised
      split
      · refine Sub.start (returnNamed_sub hi).left fun r ls hr hl p hp => ?_
        simp only [List.mem_cons, List.not_mem_nil, or_false] at hp
        rcases hp with rfl | rfl | rfl | rfl <;> exact operation_start hr hl _ (by decide)
      all_goals exact (returnNamed_sub hi).left.right
    split
    · refine h0.start fun r ls hr hl p hp => ?_
      simp only [List.mem_cons, List.not_mem_nil, or_false] at hp
      rcases hp with rfl | rfl <;> exact specialised_start hr hl _ (by simp)
    all_goals exact h0.right
  · simp only [List.mem_cons, List.not_mem_nil, or_false] at hp
    subst hp
    exact modified_start hr hl

theorem sub_mixinReturn (m : OperationMixinMember) (hi : ∀ i, m.identifier = some i → i ∉ lastWords) :
    Sub 0 (mixinMember (.operation m)) returnType m.returnType (NotNamedReturn [c!"stringifier"])
      (fun r => mixinMember (.operation { m with returnType := r })) := by
  simp only [mixinMember, operationMixinMember, optWord]
  refine .right ?_
  split
  · exact (returnNamed_sub hi).left.right
  · refine Sub.start (returnNamed_sub hi).left fun r ls hr hl p hp h0 => ?_
    simp only [List.mem_cons, List.not_mem_nil, or_false] at hp
    subst hp
    obtain ⟨x, h1, h2⟩ := head_seq hl returnNamed_ne h0
    obtain ⟨x, h1, h2⟩ := returnNamed_start h1 h2
    exact returnType_avoids (by decide) hr h1 _ (.head _) h2

theorem sub_dictionaryType (m : DictionaryMember) (hi : m.identifier ∉ lastWords) :
    Sub 0 (dictionaryMember m) type m.type_ (NotNamed [c!"required"]) (fun t => dictionaryMember { m with type_ := t }) := by
  simp only [dictionaryMember, optWord, named_eq hi]
  refine .right ?_
  split
  · hole
  · refine Sub.start (by hole) fun r ls hr hl p hp h0 => ?_
    simp only [List.mem_cons, List.not_mem_nil, or_false] at hp
    subst hp
    obtain ⟨x, h1, h2⟩ := head_seq hl (seq_ne type_ne) h0
    obtain ⟨x, h1, h2⟩ := head_seq h1 type_ne h2
    exact type_avoids (by decide) hr h1 _ (.head _) h2

theorem sub_dictionaryDefault (as : Attrs) (req : Bool) (t : Ty) (i : Str) (v : DefaultValue) :
    Sub 0 (dictionaryMember ⟨as, req, t, i, some v⟩) defaultValue v (fun _ => True)
      (fun v => dictionaryMember ⟨as, req, t, i, some v⟩) := by
  simp only [dictionaryMember, Spec.default]
  have h0 : Sub 1 (named (type t) i ⨾ (tok c!"=" ⨾ defaultValue v) ⨾ tok c!";") defaultValue v (fun _ => True)
      (fun v => named (type t) i ⨾ (tok c!"=" ⨾ defaultValue v) ⨾ tok c!";") :=
    ((Sub.self _ _ _).right.left).after (named_ne type_ne)
  exact ((h0.optWord _ _).right).weaken (Nat.zero_le _)

/-! ## Arguments -/

theorem attributes_start {as : Attrs} {ls : List Str} (h : attributes as ls) : as = none ∧ ls = [] ∨ ∃ x, as.isSome ∧ ls = c!"[" :: x := by
  cases as with
  | none => exact .inl ⟨rfl, by simp only [attributes] at h; exact h⟩
  | some as =>
    simp only [attributes] at h
    obtain ⟨_, y, rfl, rfl, -⟩ := h
    exact .inr ⟨y, rfl, rfl⟩

theorem namedAttributed_eq {t : AttributedType} {i : Str} (hi : i ∉ lastWords) :
    namedAttributed t i = (attributedType t ⨾ name i) := by
  cases t with
  | mk as t =>
    simp only [namedAttributed, attributedType, named_eq hi]
    funext ls
    apply propext
    constructor
    · rintro ⟨x, _, rfl, hx, y, z, rfl, hy, hz⟩
      exact ⟨x ++ y, z, by simp, ⟨x, y, rfl, hx, hy⟩, hz⟩
    · rintro ⟨_, z, rfl, ⟨x, y, rfl, hx, hy⟩, hz⟩
      exact ⟨x, y ++ z, by simp, hx, y, z, rfl, hy, hz⟩

theorem type_bracket {t : Ty} {ls : List Str} (h : type t ls) : ¬ [c!"["] <+: ls := by
  refine type_avoids (ws := [c!"["]) (by decide) ?_ h _ (.head _)
  intro w hw ht
  simp only [List.mem_cons, List.not_mem_nil, or_false] at hw
  subst hw
  cases t with
  | union => cases ht
  | single t =>
    cases t with
    | any => cases ht
    | nonAny t =>
      cases t <;> cases ht
      simp only [type, singleType, nonAnyType] at h
      obtain ⟨_, _, rfl, ⟨h, -⟩, -⟩ := h.1
      exact absurd h (by
        intro h
        obtain ⟨c, v, h1, h2, -⟩ := word_iff.1 h
        cases h1
        revert h2
        decide)

theorem sub_argumentAttributes (as : Attrs) (opt : Bool) (t : AttributedType) (i : Str) (d : Option DefaultValue) :
    Sub 0 (argument (.single as opt t i d)) attributes as (fun as => opt = true ∨ as ≠ none ∨ ∃ u, t = .mk none u)
      (fun as => argument (.single as opt t i d)) := by
  simp only [argument]
  cases opt with
  | true => exact (Sub.self _ _ _).left
  | false =>
    rintro _ ⟨x, y, rfl, hx, hd, hy, hz⟩
    refine ⟨[], x, y, rfl, Nat.zero_le _, hx, fun as' x' hok hx' => ⟨x', y, rfl, hx', hd, hy, fun p hp => ?_⟩⟩
    have ho : ¬ [c!"optional"] <+: y := hz _ (by split <;> simp)
    split at hp
    · simp only [List.mem_cons, List.not_mem_nil, or_false] at hp
      subst hp
      exact ho
    · rename_i hn
      simp only [List.mem_cons, List.not_mem_nil, or_false] at hp
      rcases hp with rfl | rfl
      · exact ho
      · rcases hok with h | h | ⟨u, rfl⟩
        · cases h
        · cases as' <;> simp at h hn
        · simp only [namedAttributed] at hy
          obtain ⟨_, y, rfl, he, z, w, rfl, h1, -⟩ := hy
          simp only [attributes] at he
          cases he
          intro h2
          exact type_bracket h1 (prefix_left (type_ne _ h1) (by simpa using h2))

theorem sub_argumentType (as : Attrs) (opt : Bool) (t : AttributedType) (i : Str) (d : Option DefaultValue) (hi : i ∉ lastWords) :
    Sub 0 (argument (.single as opt t i d)) attributedType t
      (fun t => opt = true ∨ (as ≠ none ∨ ∃ u, t = .mk none u) ∧ ∃ as u, t = .mk as u ∧ (as ≠ none ∨ NotNamed [c!"optional"] u))
      (fun t => argument (.single as opt t i d)) := by
  simp only [argument, namedAttributed_eq hi]
  refine .right ?_
  cases opt with
  | true => exact (Sub.self _ _ _).left.left.right
  | false =>
    rintro _ ⟨hd, ⟨x, y, rfl, hx, hy⟩, hz⟩
    refine ⟨[], x, y, rfl, Nat.zero_le _, hx, fun t' x' hok hx' => ⟨hd, ⟨x', y, rfl, hx', hy⟩, ?_⟩⟩
    rcases hok with h | ⟨h1, as', u, rfl, h2⟩
    · cases h
    · simp only [attributedType] at hx'
      obtain ⟨a, b, rfl, ha, hb⟩ := hx'
      have ho : ¬ [c!"optional"] <+: [] ++ (a ++ b) ++ y := by
        intro hp
        rcases attributes_start ha with ⟨rfl, rfl⟩ | ⟨x, h4, rfl⟩
        · rcases h2 with h2 | h2
          · exact h2 rfl
          · exact type_avoids (by decide) h2 hb _ (.head _) (prefix_left (type_ne _ hb) (by simpa using hp))
        · revert hp
          simp
      intro p hp
      split at hp
      · simp only [List.mem_cons, List.not_mem_nil, or_false] at hp
        subst hp
        exact ho
      · rename_i hn
        simp only [List.mem_cons, List.not_mem_nil, or_false] at hp
        rcases hp with rfl | rfl
        · exact ho
        · rcases h1 with h1 | ⟨v, h1⟩
          · cases as <;> simp at h1 hn
          · cases h1
            simp only [attributes] at ha
            cases ha
            intro h2
            exact type_bracket hb (prefix_left (type_ne _ hb) (by simpa using h2))

theorem sub_argumentDefault (as : Attrs) (opt : Bool) (t : AttributedType) (i : Str) (v : DefaultValue) :
    Sub 0 (argument (.single as opt t i (some v))) defaultValue v (fun _ => True)
      (fun v => argument (.single as opt t i (some v))) := by
  simp only [argument, Spec.default]
  refine .right ?_
  cases opt with
  | true => exact (Sub.self _ _ _).right.right.right
  | false => rintro _ ⟨h, -⟩; cases h

/-! ## Names -/

theorem sub_named {T : Lang} {i : Str} (hT : ∀ ls, T ls → ls ≠ []) : Sub 1 (named T i) name i NotLast (fun i => named T i) := by
  rintro _ ⟨x, y, rfl, hx, hy, -⟩
  exact ⟨x, y, [], by simp, List.length_pos_iff.2 (hT x hx), hy, fun i' y' hi hy' =>
    ⟨x, y', by simp, hx, hy', name_apart hi hy'⟩⟩

theorem constType_ne {t : ConstType} : ∀ ls, constType t ls → ls ≠ [] := by
  intro ls h
  cases t
  · exact seq_ne integerType_ne _ h
  · exact seq_ne floatingPointType_ne _ h
  · exact seq_ne tok_ne _ h
  · exact seq_ne tok_ne _ h
  · exact seq_ne tok_ne _ h
  · refine seq_ne ?_ _ h
    rintro _ ⟨-, ⟨rfl, -⟩ | rfl⟩ <;> simp

theorem sub_namedAttributed {t : AttributedType} {i : Str} :
    Sub 1 (namedAttributed t i) name i NotLast (fun i => namedAttributed t i) := by
  cases t with
  | mk as t =>
    simp only [namedAttributed]
    exact (sub_named type_ne).right

theorem Sub.avoidingLast {β : Type} {n : Nat} {A : Lang} {M : β → Lang} {b : β} {ok : β → Prop} {K : β → Lang}
    {ps : List (List Str)} (hM : ∀ b l, M b l → ∃ v l', l = v :: l' ∧ ∀ p ∈ ps, p.getLast? ≠ some v)
    (hp : ∀ p ∈ ps, p.length ≤ n + 1) (h : Sub n A M b ok K) :
    Sub n (Spec.avoiding ps A) M b ok (fun b' => Spec.avoiding ps (K b')) := by
  rintro ls ⟨hl, ha⟩
  obtain ⟨l1, l2, l3, rfl, h1, h2, h3⟩ := h ls hl
  refine ⟨l1, l2, l3, rfl, h1, h2, fun b' l2' h4 h5 => ⟨h3 b' l2' h4 h5, fun p hpp h6 => ?_⟩⟩
  obtain ⟨v, y, rfl, hv⟩ := hM b' l2' h5
  have hlen := hp p hpp
  have h7 : p <+: l1 ++ [v] := by
    refine List.prefix_of_prefix_length_le h6 ⟨y ++ l3, by simp⟩ ?_
    simp; omega
  rcases Nat.lt_or_ge l1.length p.length with h8 | h8
  · have := h7.eq_of_length (by have := h7.length_le; simp at this ⊢; omega)
    exact hv p hpp (by rw [this]; simp)
  · refine ha p hpp ?_
    rw [List.append_assoc]
    exact (List.prefix_of_prefix_length_le h7 (List.prefix_append ..) h8).trans (List.prefix_append ..)

theorem name_ne_paren (i : Str) (l : List Str) (h : name i l) :
    ∃ v l', l = v :: l' ∧ ∀ p ∈ [[c!"constructor", c!"("]], p.getLast? ≠ some v := by
  obtain ⟨h1, h2⟩ := h
  obtain ⟨c, v, rfl, h3, -⟩ := word_iff.1 h1
  rcases h2 with rfl | rfl
  · refine ⟨_, _, rfl, fun p hp h => ?_⟩
    simp at hp
    subst hp
    simp at h
    rw [← h.1] at h3
    revert h3
    decide
  · refine ⟨_, _, rfl, fun p hp h => ?_⟩
    simp at hp
    subst hp
    simp at h

theorem sub_interfaceOperationName (m : OperationInterfaceMember) (i : Str) :
    Sub 0 (interfaceMember (.operation { m with identifier := some i })) name i NotLast
      (fun i => interfaceMember (.operation { m with identifier := some i })) := by
  simp only [interfaceMember, operationInterfaceMember, returnNamed]
  have h0 : Sub 1 (named (returnType m.returnType) i ⨾ argumentList m.args ⨾ tok c!";") name i NotLast
      (fun i => named (returnType m.returnType) i ⨾ argumentList m.args ⨾ tok c!";") := (sub_named returnType_ne).left
  exact ((((h0.specialised m.special).modified m.modifier).avoidingLast name_ne_paren (by simp)).right).weaken (Nat.zero_le _)

theorem sub_definitionName (d : Definition) :
    Sub 0 (definition d) name (nameOf d) (CanName d) (fun i => definition (renamed i d)) := by
  have h0 : ∀ {i : Str} {B : Lang}, Sub 0 (avoiding [[c!"typedef"]] (name i) ⨾ B) name i (fun i => i ≠ c!"typedef")
      (fun i => avoiding [[c!"typedef"]] (name i) ⨾ B) := by
    intro i B
    refine (Sub.start (.self _ _ _) fun j ls hj hl p hp h0 => ?_).left
    simp only [List.mem_cons, List.not_mem_nil, or_false] at hp
    subst hp
    rcases hl.2 with rfl | rfl
    · simp at h0
      exact hj h0.symm
    · simp at h0
  cases d with
  | typedef as t i =>
    simp only [definition, nameOf, renamed]
    exact (sub_namedAttributed.weaken (Nat.zero_le _)).left.right.right
  | includesStatement as i j => exact h0.right
  | implements as i j => exact h0.right
  | _ =>
    simp only [definition, nameOf, renamed]
    hole

theorem sub_enumValue (as : Attrs) (i : Str) (vs : List Str) (v : Str) (vs' : List Str) :
    Sub 0 (definition (.enum as i (vs ++ v :: vs'))) string v (fun _ => True)
      (fun v => definition (.enum as i (vs ++ v :: vs'))) := by
  simp only [definition, braces]
  refine .right (.right (.right (.left (.right (.left ?_)))))
  rintro ls ⟨-, c, h⟩
  simp only [List.map_append, List.map_cons] at h
  have h0 : Sub 0 (sepBy comma (vs.map string ++ string v :: vs'.map string) ⨾ optTok c c!",") string v (fun _ => True)
      (fun v => sepBy comma (vs.map string ++ string v :: vs'.map string) ⨾ optTok c c!",") := (Sub.self _ _ _).sepBy.left
  obtain ⟨l1, l2, l3, h1, h2, h3, h4⟩ := h0 ls h
  refine ⟨l1, l2, l3, h1, h2, h3, fun v l _ hv => ⟨by simp, c, ?_⟩⟩
  simp only [List.map_append, List.map_cons]
  exact h4 v l trivial hv

theorem sub_argumentName (as : Attrs) (opt : Bool) (t : AttributedType) (i : Str) (d : Option DefaultValue) :
    Sub 0 (argument (.single as opt t i d)) name i NotLast (fun i => argument (.single as opt t i d)) := by
  simp only [argument]
  refine .right ?_
  cases opt with
  | true => exact (sub_namedAttributed.weaken (Nat.zero_le _)).left.right
  | false =>
    have h0 := sub_namedAttributed (t := t) (i := i) |>.avoiding
      (ps := if as.isSome then [[c!"optional"]] else [[c!"optional"], [c!"["]]) (by split <;> simp)
    rintro ls ⟨hd, hl⟩
    obtain ⟨l1, l2, l3, h1, h2, h3, h4⟩ := h0 ls hl
    exact ⟨l1, l2, l3, h1, Nat.zero_le _, h3, fun i l hi hl => ⟨hd, h4 i l hi hl⟩⟩

theorem sub_attributeName (a : ExtAttr) :
    Sub 0 (extAttr a) name (attributeName a) (fun _ => True) (fun i => extAttr (attributeRenamed i a)) := by
  cases a with
  | noArgs i => simp only [extAttr, attributeName, attributeRenamed]; exact .self _ _ _
  | _ => simp only [extAttr, attributeName, attributeRenamed]; hole

theorem place_sub {α β : Type} {L : α → Lang} {M : β → Lang} {a : α} {b : β} {put : β → α} {ok : β → Prop}
    (h : Place L M a b put ok) : Sub 0 (L a) M b ok (fun b' => L (put b')) := by
  induction h with
  | here L a => exact .self _ _ _
  | inside _ _ ih ih' => exact ih.trans ih'
  | items L as bs cs => exact sub_items L as bs cs
  | item L as b cs =>
    simp only [all, List.map_append, List.map_cons]
    exact (Sub.self _ _ _).concat
  | element L as b cs =>
    simp only [commas, List.map_append, List.map_cons]
    exact (Sub.self _ _ _).sepBy
  | document ds => exact .self _ _ _
  | definitionAttributes d => exact sub_definitionAttributes d
  | interfaceBody as i inh ms =>
    simp only [definition, body, braces]
    exact (Sub.self (all _) _ _).left.right.left.right.right.right.right
  | callbackInterfaceBody as i inh ms =>
    exact (Sub.self (all _) _ _).left.right.left.right.right.right.right.right
  | partialInterfaceBody as i ms => exact (Sub.self (all _) _ _).left.right.left.right.right.right.right
  | mixinBody as i ms => exact (Sub.self (all _) _ _).left.right.left.right.right.right.right
  | partialMixinBody as i ms => exact (Sub.self (all _) _ _).left.right.left.right.right.right.right.right
  | namespaceBody as i ms => exact (Sub.self (all _) _ _).left.right.left.right.right.right
  | partialNamespaceBody as i ms => exact (Sub.self (all _) _ _).left.right.left.right.right.right.right
  | dictionaryBody as i inh ms => exact (Sub.self (all _) _ _).left.right.left.right.right.right.right
  | partialDictionaryBody as i ms => exact (Sub.self (all _) _ _).left.right.left.right.right.right.right
  | callbackReturn as i r args => exact (Sub.self _ _ _).left.right.right.right.right
  | callbackArguments as i r args => exact (Sub.self _ _ _).left.right.right.right.right.right
  | typedefType as t i hi =>
    simp only [definition, namedAttributed_eq hi]
    hole
  | definitionName d => exact sub_definitionName d
  | includesMixin as i j => exact (Sub.self _ _ _).left.right.right.right
  | implementsInterface as i j => exact (Sub.self _ _ _).left.right.right.right
  | interfaceBase as i j ms => exact (Sub.self _ _ _).right.left.right.right.right
  | callbackInterfaceBase as i j ms => exact (Sub.self _ _ _).right.left.right.right.right.right
  | dictionaryBase as i j ms => exact (Sub.self _ _ _).right.left.right.right.right
  | enumValue as i vs v vs' => exact sub_enumValue as i vs v vs'
  | constName m =>
    simp only [constMember]
    exact ((sub_named constType_ne).weaken (Nat.zero_le _)).left.right.right
  | interfaceAttributeName m => exact (sub_namedAttributed.weaken (Nat.zero_le _)).left.right.right.right.right
  | mixinAttributeName m => exact (sub_namedAttributed.weaken (Nat.zero_le _)).left.right.right.right.right
  | namespaceAttributeName m => exact (sub_namedAttributed.weaken (Nat.zero_le _)).left.right.right.right
  | interfaceOperationName m i => exact sub_interfaceOperationName m i
  | mixinOperationName m i =>
    simp only [mixinMember, operationMixinMember, returnNamed]
    exact ((Sub.optWord (sub_named returnType_ne).left _ _).right).weaken (Nat.zero_le _)
  | namespaceOperationName m i =>
    simp only [namespaceMember, operationNamespaceMember, returnNamed]
    exact ((sub_named returnType_ne).left.right).weaken (Nat.zero_le _)
  | dictionaryMemberName m =>
    simp only [dictionaryMember]
    exact ((Sub.optWord (sub_named type_ne).left _ _).right).weaken (Nat.zero_le _)
  | interfaceMemberAttributes m => exact sub_interfaceMemberAttributes m
  | mixinMemberAttributes m => exact sub_mixinMemberAttributes m
  | namespaceMemberAttributes m => exact sub_namespaceMemberAttributes m
  | dictionaryMemberAttributes m => exact (Sub.self _ _ _).left
  | interfaceConst m => exact Sub.self constMember _ _
  | mixinConst m => exact Sub.self constMember _ _
  | namespaceConst m => exact Sub.self constMember _ _
  | constType m hi =>
    simp only [constMember, named_eq hi]
    hole
  | constValue m =>
    simp only [constMember]
    hole
  | interfaceAttributeType m hi =>
    simp only [interfaceMember, attributeInterfaceMember, namedAttributed_eq hi]
    hole
  | mixinAttributeType m hi =>
    simp only [mixinMember, attributeMixinMember, namedAttributed_eq hi]
    hole
  | namespaceAttributeType m hi =>
    simp only [namespaceMember, attributeNamespaceMember, namedAttributed_eq hi]
    hole
  | constructorArguments m =>
    simp only [interfaceMember, constructorInterfaceMember]
    hole
  | interfaceArguments m => exact sub_interfaceArguments m
  | mixinArguments m => exact sub_mixinArguments m
  | namespaceArguments m =>
    simp only [namespaceMember, operationNamespaceMember]
    hole
  | interfaceReturn m hi => exact sub_interfaceReturn m hi
  | mixinReturn m hi => exact sub_mixinReturn m hi
  | namespaceReturn m hi =>
    simp only [namespaceMember, operationNamespaceMember]
    exact (returnNamed_sub hi).left.right
  | iterableType as t => exact (Sub.self _ _ _).left.right.left.right.right
  | iterableTypes as p => exact (Sub.self _ _ _).left.right.left.right.right
  | asyncIterableType as t args => exact (Sub.self _ _ _).left.right.left.right.right.right
  | asyncIterableTypes as p args => exact (Sub.self _ _ _).left.right.left.right.right.right
  | maplikeTypes m => exact (Sub.self _ _ _).left.right.left.right.right.right
  | setlikeType m => exact (Sub.self _ _ _).left.right.left.right.right.right
  | firstType t u => exact (Sub.self _ _ _).left
  | secondType t u => exact (Sub.self _ _ _).right.right
  | dictionaryType m hi => exact sub_dictionaryType m hi
  | dictionaryDefault as req t i v => exact sub_dictionaryDefault as req t i v
  | attributeItems as =>
    simp only [attributes, brackets, extAttrs_eq]
    exact (Sub.self (commas _) _ _).left.right
  | attributeName a => exact sub_attributeName a
  | attributeValue i v =>
    simp only [extAttr]
    hole
  | attributeNames i is j is' =>
    simp only [extAttr, parens, List.map_append, List.map_cons]
    exact (Sub.self _ _ _).sepBy.left.right.right.right
  | attributeArguments i args =>
    simp only [extAttr]
    exact (Sub.self argumentList _ _).right
  | attributeNamedArguments i j args =>
    simp only [extAttr]
    exact (Sub.self argumentList _ _).right.right.right
  | arguments args =>
    simp only [argumentList, parens, arguments_eq]
    exact (Sub.self (commas _) _ _).left.right
  | argumentAttributes as opt t i d => exact sub_argumentAttributes as opt t i d
  | argumentType as opt t i d hi => exact sub_argumentType as opt t i d hi
  | argumentDefault as opt t i v => exact sub_argumentDefault as opt t i v
  | argumentName as opt t i d => exact sub_argumentName as opt t i d
  | variadicName as t i =>
    simp only [argument]
    hole
  | variadicAttributes as t i =>
    simp only [argument]
    hole
  | variadicType as t i =>
    simp only [argument]
    hole
  | typeAttributes as t =>
    simp only [attributedType]
    hole
  | attributedType as t =>
    simp only [attributedType]
    hole
  | returnType t =>
    simp only [returnType]
    refine Sub.start (.self _ _ _) fun t ls ht hl p hp => ?_
    simp only [List.mem_cons, List.not_mem_nil, or_false] at hp
    subst hp
    exact type_avoids (by decide) ht hl _ (.head _)
  | singleType t =>
    simp only [type, singleType]
    refine Sub.start (.self _ _ _) fun t ls ht hl p hp h0 => ?_
    simp only [List.mem_cons, List.not_mem_nil, or_false] at hp
    subst hp
    rcases nonAnyType_start hl h0 with h | ⟨b, q, rfl, h⟩ | ⟨i, q, rfl, h⟩ | ⟨q, rfl, -⟩
    · exact absurd h (by decide)
    · exact absurd h (by cases b <;> decide)
    · exact absurd h (by simp)
    · exact ht q rfl
  | unionMember ms m ms' q =>
    simp only [type, unionMembers_map, List.map_append, List.map_cons, parens]
    exact (Sub.self _ _ _).sepBy.left.right.left
  | nestedUnionMember ms m ms' q =>
    simp only [unionMember, unionMembers_map, List.map_append, List.map_cons, parens]
    exact (Sub.self _ _ _).sepBy.left.right.left
  | unionMemberAttributes as t =>
    simp only [unionMember]
    hole
  | unionMemberType as t =>
    simp only [unionMember]
    hole
  | promise r =>
    simp only [nonAnyType, angles]
    hole
  | sequence t q =>
    simp only [nonAnyType, angles]
    hole
  | frozenArray t q =>
    simp only [nonAnyType, angles]
    hole
  | recordKey k v q =>
    simp only [nonAnyType, angles]
    hole
  | recordValue k v q =>
    simp only [nonAnyType, angles]
    hole
  | recordKeyNonAny t =>
    simp only [recordKeyType]
    refine Sub.start (.self _ _ _) fun t ls ht hl p hp h0 => ?_
    simp only [List.mem_cons, List.not_mem_nil, or_false] at hp
    rcases hp with rfl | rfl | rfl
    all_goals
      rcases nonAnyType_start hl h0 with h | ⟨b, q, rfl, h⟩ | ⟨i, q, rfl, h⟩ | ⟨q, rfl, h⟩
      · exact absurd h (by decide)
      · cases b <;> first | exact absurd h (by decide) | exact (ht q).1 rfl | exact (ht q).2.1 rfl | exact (ht q).2.2 rfl
      · exact absurd h (by simp)
      · exact absurd h (by decide)

/-! ## Texts -/

/-- The lexemes with trivia around them. -/
def Around (ls : List Str) (s : Str) : Prop := ∃ t b, s = t ++ b ∧ Trivia t ∧ Text ls b

theorem trivia_apart {t : Str} (ht : Trivia t) (hn : t ≠ []) : ∃ c e, t = c :: e ∧ ¬ NameChar c := by
  cases ht with
  | nil => exact absurd rfl hn
  | white hc _ =>
    refine ⟨_, _, rfl, ?_⟩
    simp only [List.mem_cons, List.not_mem_nil, or_false] at hc
    unfold NameChar
    rcases hc with rfl | rfl | rfl | rfl <;> decide
  | line => exact ⟨_, _, rfl, by unfold NameChar; decide⟩
  | block => exact ⟨_, _, rfl, by unfold NameChar; decide⟩

theorem apart_trivia {w e u b : Str} (h : Apart w e) (ht : Trivia u) (hn : u ≠ []) : Apart w (e ++ (u ++ b)) := by
  cases e with
  | nil =>
    obtain ⟨c, e, rfl, hc⟩ := trivia_apart ht hn
    intro c' d _ h1 _ h2
    simp at h1
    exact hc (h1 ▸ h2)
  | cons c e => exact h

theorem text_trivia {l1 l2 : List Str} {b1 u b2 : Str} (h1 : Text l1 b1) (hl : l1 ≠ []) (hu : Trivia u) (hn : u ≠ [])
    (h2 : Text l2 b2) : Text (l1 ++ l2) (b1 ++ (u ++ b2)) := by
  induction h1 with
  | nil => exact absurd rfl hl
  | @cons w ws t' s ht' hs ha ih =>
    cases ws with
    | nil =>
      cases hs
      have := Text.cons (w := w) (t := t' ++ u) (ht'.append hu) h2 (by
        have := apart_trivia (b := b2) ha hu hn
        simpa using this)
      simpa using this
    | cons v ws =>
      have := Text.cons (w := w) ht' (ih (by simp)) (by
        have := apart_trivia (b := b2) ha hu hn
        simpa using this)
      simpa using this

theorem around_trivia {l1 l2 : List Str} {s1 u s2 : Str} (h1 : Around l1 s1) (hu : Trivia u) (hn : u ≠ []) (h2 : Around l2 s2) :
    Around (l1 ++ l2) (s1 ++ u ++ s2) := by
  obtain ⟨t1, b1, rfl, ht1, h1⟩ := h1
  obtain ⟨t2, b2, rfl, ht2, h2⟩ := h2
  cases l1 with
  | nil =>
    cases h1
    exact ⟨t1 ++ (u ++ t2), b2, by simp, ht1.append (hu.append ht2), h2⟩
  | cons w l1 =>
    exact ⟨t1, _, by simp, ht1, text_trivia h1 (by simp) (hu.append ht2) (by simp [hn]) h2⟩

theorem around_split {l1 l2 l3 : List Str} {s : Str} (h : Around (l1 ++ l2 ++ l3) s) :
    ∃ x m y, s = x ++ m ++ y ∧ Around l1 x ∧ Text l2 m ∧ Text l3 y := by
  obtain ⟨t, b, rfl, ht, h⟩ := h
  rw [textThen_nil, List.append_assoc] at h
  obtain ⟨b1, h1, h⟩ := textThen_split h
  obtain ⟨b2, h2, h3⟩ := textThen_split h
  obtain ⟨m, rfl, h4⟩ := textThen_text h2
  obtain ⟨x, rfl, h5⟩ := textThen_text h1
  exact ⟨t ++ x, m, b2, by simp, ⟨t, x, rfl, ht, h5⟩, h4, textThen_nil.2 h3⟩

theorem place_text {α β : Type} {L : α → Lang} {M : β → Lang} {a : α} {b : β} {put : β → α} {ok : β → Prop}
    (h : Place L M a b put ok) {s : Str} {ls : List Str} (hl : L a ls) (hs : Around ls s) :
    ∃ x m y l2, s = x ++ m ++ y ∧ M b l2 ∧ Text l2 m ∧ ∀ b' l2' m' u v, ok b' → M b' l2' → Around l2' m' →
      Trivia u → u ≠ [] → Trivia v → v ≠ [] → ∃ ls', L (put b') ls' ∧ Around ls' (x ++ u ++ m' ++ v ++ y) := by
  obtain ⟨l1, l2, l3, rfl, -, h2, h3⟩ := place_sub h ls hl
  obtain ⟨x, m, y, rfl, h4, h5, h6⟩ := around_split hs
  refine ⟨x, m, y, l2, rfl, h2, h5, fun b' l2' m' u v hok h7 h8 hu hu' hv hv' => ⟨_, h3 b' l2' hok h7, ?_⟩⟩
  have := around_trivia (around_trivia h4 hu hu' h8) hv hv' (s2 := y) ⟨[], y, rfl, .nil, h6⟩
  simpa using this

end Verif.Places
