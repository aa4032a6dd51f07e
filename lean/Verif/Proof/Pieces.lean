import Verif.Spec.Pieces
import Verif.Proof.Kind
import Verif.Proof.Normal
import Verif.Proof.Prefix
import Verif.Proof.Relayout

/-! # Cutting a text at its semicolons -/

namespace Verif
open Nom Spec

/-! ## Cutting -/

theorem cut_flatten (ls : List Str) : ∀ (n : Nat) (a : List Str), (cut n a ls).flatten = a ++ ls := by
  induction ls with
  | nil => intro n a; simp only [cut]; split <;> simp [*]
  | cons w ls ih => intro n a; simp only [cut]; (repeat' split) <;> simp [ih]

theorem pair_cases {o c : Str} (h : (o, c) ∈ pairs) : o ∈ openings ∧ c ∈ closings ∧ c ∉ openings := by
  simp only [pairs, List.mem_cons, List.not_mem_nil, or_false, Prod.mk.injEq] at h
  rcases h with ⟨rfl, rfl⟩ | ⟨rfl, rfl⟩ | ⟨rfl, rfl⟩ | ⟨rfl, rfl⟩ <;> decide

theorem flat_cases {w : Str} (h : ∀ p ∈ pairs, w ≠ p.1 ∧ w ≠ p.2) : w ∉ openings ∧ w ∉ closings := by
  have h1 := h (c!"(", c!")") (by decide)
  have h2 := h (c!"[", c!"]") (by decide)
  have h3 := h (c!"{", c!"}") (by decide)
  have h4 := h (c!"<", c!">") (by decide)
  simp only [openings, closings, List.mem_cons, List.not_mem_nil, or_false, not_or]
  exact ⟨⟨h1.1, h2.1, h3.1, h4.1⟩, h1.2, h2.2, h3.2, h4.2⟩

theorem cut_inside {u : List Str} (h : Balanced u) : ∀ (n : Nat) (a r : List Str), cut (n + 1) a (u ++ r) = cut (n + 1) (a ++ u) r := by
  induction h with
  | nil => simp
  | item hw _ ih =>
    intro n a r
    obtain ⟨h1, h2⟩ := flat_cases hw
    simp [cut, h1, h2, ih]
  | @group o c ls ls' hp _ _ ih ih' =>
    intro n a r
    obtain ⟨h1, h2, h3⟩ := pair_cases hp
    have e : o :: ls ++ c :: ls' ++ r = o :: (ls ++ (c :: (ls' ++ r))) := by simp
    rw [e]
    simp [cut, h1, h2, h3, ih, ih']

theorem cut_outside {u : List Str} (h : Balanced u) : ∀ (n : Nat) (a r : List Str), c!";" ∉ u → cut n a (u ++ r) = cut n (a ++ u) r := by
  induction h with
  | nil => simp
  | item hw _ ih =>
    intro n a r hn
    obtain ⟨h1, h2⟩ := flat_cases hw
    simp only [List.mem_cons, not_or] at hn
    simp [cut, h1, h2, Ne.symm hn.1, ih _ _ _ hn.2]
  | @group o c ls ls' hp h _ ih ih' =>
    intro n a r hn
    obtain ⟨h1, h2, h3⟩ := pair_cases hp
    have e : o :: ls ++ c :: ls' ++ r = o :: (ls ++ (c :: (ls' ++ r))) := by simp
    have hn' : c!";" ∉ ls' := fun hm => hn (by simp [hm])
    rw [e]
    simp [cut, h1, h2, h3, cut_inside h, ih' _ _ _ hn']

/-- A list of items that is a piece. -/
def IsPiece (ls : List Str) : Prop := ∀ r, cut 0 [] (ls ++ r) = ls :: cut 0 [] r

theorem piece_closed {a : List Str} (hb : Balanced a) (hn : c!";" ∉ a) : IsPiece (a ++ [c!";"]) := by
  intro r
  rw [List.append_assoc, cut_outside hb _ _ _ hn]
  have h1 : c!";" ∉ openings := by decide
  have h2 : c!";" ∉ closings := by decide
  simp [cut, h1, h2]

theorem piece_body {a m : List Str} (hb : Balanced a) (hn : c!";" ∉ a) (hm : Balanced m) : IsPiece (a ++ c!"{" :: (m ++ [c!"}", c!";"])) := by
  intro r
  have h1 : c!";" ∉ openings := by decide
  have h2 : c!";" ∉ closings := by decide
  have h3 : c!"{" ∈ openings := by decide
  have h4 : c!"}" ∉ openings := by decide
  have h5 : c!"}" ∈ closings := by decide
  rw [List.append_assoc, cut_outside hb _ _ _ hn, List.cons_append, List.append_assoc]
  simp [cut, h1, h2, h3, h4, h5, cut_inside hm]

theorem pieces_concat {α : Type} {L : α → Lang} (hL : ∀ a ls, L a ls → IsPiece ls) : ∀ {as : List α} {ls : List Str},
    concat (as.map L) ls → OneByOne (fun p a => L a p) (pieces ls) as
  | [], _, h => by cases h; exact .nil
  | a :: as, _, ⟨x, y, e, h1, h2⟩ => by
    subst e
    have : pieces (x ++ y) = x :: pieces y := hL a x h1 y
    rw [this]
    exact .cons h1 (pieces_concat hL h2)

theorem concat_pieces {α : Type} {L : α → Lang} : ∀ {as : List α} {ps : List (List Str)}, OneByOne (fun p a => L a p) ps as →
    concat (as.map L) ps.flatten
  | _, _, .nil => rfl
  | _, _, .cons h hs => ⟨_, _, by simp, h, concat_pieces hs⟩

theorem flatten_pieces (ls : List Str) : (pieces ls).flatten = ls := cut_flatten ls 0 []

theorem Spec.OneByOne.imp {α β : Type} {R S : α → β → Prop} : ∀ {as : List α} {bs : List β}, (∀ a ∈ as, ∀ b, R a b → S a b) →
    OneByOne R as bs → OneByOne S as bs
  | _, _, _, .nil => .nil
  | _, _, h, .cons hr hs => .cons (h _ (by simp) _ hr) (OneByOne.imp (fun a ha => h a (by simp [ha])) hs)

/-! ## Definitions -/

/-- What is in front of the braces. -/
def head : Definition → Lang
  | .callbackInterface as i inh _ => attributes as ⨾ tok c!"callback" ⨾ tok c!"interface" ⨾ name i ⨾ inheritance inh
  | .interface as i inh _ => attributes as ⨾ tok c!"interface" ⨾ name i ⨾ inheritance inh
  | .interfaceMixin as i _ => attributes as ⨾ tok c!"interface" ⨾ tok c!"mixin" ⨾ name i
  | .namespace as i _ => attributes as ⨾ tok c!"namespace" ⨾ name i
  | .dictionary as i inh _ => attributes as ⨾ tok c!"dictionary" ⨾ name i ⨾ inheritance inh
  | .partialInterface as i _ => attributes as ⨾ tok c!"partial" ⨾ tok c!"interface" ⨾ name i
  | .partialInterfaceMixin as i _ => attributes as ⨾ tok c!"partial" ⨾ tok c!"interface" ⨾ tok c!"mixin" ⨾ name i
  | .partialDictionary as i _ => attributes as ⨾ tok c!"partial" ⨾ tok c!"dictionary" ⨾ name i
  | .partialNamespace as i _ => attributes as ⨾ tok c!"partial" ⨾ tok c!"namespace" ⨾ name i
  | _ => eps

/-- What is between the braces. -/
def inner : Definition → Lang
  | .callbackInterface _ _ _ ms => concat (ms.map interfaceMember)
  | .interface _ _ _ ms => concat (ms.map interfaceMember)
  | .interfaceMixin _ _ ms => concat (ms.map mixinMember)
  | .namespace _ _ ms => concat (ms.map namespaceMember)
  | .dictionary _ _ _ ms => concat (ms.map dictionaryMember)
  | .partialInterface _ _ ms => concat (ms.map interfaceMember)
  | .partialInterfaceMixin _ _ ms => concat (ms.map mixinMember)
  | .partialDictionary _ _ ms => concat (ms.map dictionaryMember)
  | .partialNamespace _ _ ms => concat (ms.map namespaceMember)
  | _ => eps

theorem definition_body {d d' : Definition} (h : withoutMembers d = some d') :
    definition d = (head d ⨾ (tok c!"{" ⨾ inner d ⨾ tok c!"}") ⨾ tok c!";") ∧ head d' = head d ∧ inner d' = eps ∧
    withoutMembers d' = some d' := by
  cases d <;> simp only [withoutMembers, reduceCtorEq, Option.some.injEq] at h <;> subst h <;>
    (refine ⟨?_, rfl, rfl, rfl⟩; simp only [head, inner, definition, body, braces, seq_assoc])

theorem bal_head (d : Definition) : AllBalanced (head d) := by
  cases d <;> simp only [head] <;> repeat' first
    | exact .eps
    | exact .name _
    | exact bal_inheritance _
    | exact bal_attributes _
    | (refine .cons (by decide +kernel) ?_)
    | (refine .seq (bal_attributes _) ?_)
    | (refine .seq (.name _) ?_)

theorem tidy_head (d : Definition) : Tidy (head d) := by
  cases d <;> simp only [head] <;> repeat' first
    | exact .eps
    | exact .name _
    | exact tidy_inheritance _
    | exact tidy_attributes _
    | exact .kw .callback
    | exact .kw .interface
    | exact .kw .mixin
    | exact .kw .namespace
    | exact .kw .dictionary
    | exact .kw .partial
    | refine .seq ?_ ?_

theorem bal_inner (d : Definition) : AllBalanced (inner d) := by
  cases d <;> simp only [inner] <;> first
    | exact .eps
    | exact .concat fun m _ => bal_interfaceMember m
    | exact .concat fun m _ => bal_mixinMember m
    | exact .concat fun m _ => bal_namespaceMember m
    | exact .concat fun m _ => bal_dictionaryMember m

theorem mem_body {d d' : Definition} (h : withoutMembers d = some d') {ls : List Str} :
    definition d ls ↔ ∃ a m, ls = a ++ c!"{" :: (m ++ [c!"}", c!";"]) ∧ head d a ∧ inner d m := by
  rw [(definition_body h).1]
  constructor
  · rintro ⟨a, _, rfl, h1, _, _, rfl, ⟨_, _, rfl, rfl, m, _, rfl, h2, rfl⟩, rfl⟩
    exact ⟨a, m, by simp, h1, h2⟩
  · rintro ⟨a, m, rfl, h1, h2⟩
    exact ⟨a, _, rfl, h1, c!"{" :: (m ++ [c!"}"]), [c!";"], by simp, ⟨[c!"{"], _, rfl, rfl, m, _, rfl, h2, rfl⟩, rfl⟩

theorem balanced_init {w : Str} (hw : ∀ p ∈ pairs, w ≠ p.1 ∧ w ≠ p.2) {ls a : List Str} (h : Balanced ls) (e : ls = a ++ [w]) : Balanced a := by
  induction h generalizing a with
  | nil => simp at e
  | @item v ls hv _ ih =>
    cases a with
    | nil => exact .nil
    | cons x a =>
      simp only [List.cons_append, List.cons.injEq] at e
      obtain ⟨rfl, rfl⟩ := e
      exact .item hv (ih rfl)
  | @group o c ls ls' hp h _ _ ih' =>
    rcases List.eq_nil_or_concat ls' with rfl | ⟨l, x, rfl⟩
    · have := (List.append_inj' e rfl).2
      simp only [List.cons.injEq, and_true] at this
      exact absurd this.symm (hw _ hp).2
    · have e2 : (o :: ls ++ c :: l) ++ [x] = a ++ [w] := by simpa using e
      have h3 := List.append_inj' e2 rfl
      simp only [List.cons.injEq, and_true] at h3
      obtain ⟨rfl, rfl⟩ := h3
      exact .group hp h (ih' (by simp))

theorem piece_definition {d : Definition} {ls : List Str} (h : definition d ls) : IsPiece ls := by
  cases hw : withoutMembers d with
  | some d' =>
    obtain ⟨a, m, rfl, h1, h2⟩ := (mem_body hw).1 h
    exact piece_body (bal_head d a h1) (tidy_head d a h1).2 (bal_inner d m h2)
  | none =>
    have hc : memberCount d = 0 := by cases d <;> first | rfl | exact absurd hw (by simp [withoutMembers])
    have h1 : ls.count c!";" = 1 := by
      have := semis_definitions [d] ls ⟨ls, [], by simp, h, rfl⟩
      simpa [hc] using this
    have hb := bal_definition d ls h
    obtain ⟨a, rfl⟩ := semi_definition d ls h
    have hn : c!";" ∉ a := by
      have : a.count c!";" = 0 := by simpa [List.count_append] using h1
      simpa [List.count_eq_zero] using this
    refine piece_closed ?_ hn
    exact balanced_init (by unfold pairs; decide) hb rfl

theorem piece_member {A : Lang} (hc : Closed A) (hb : AllBalanced A) {ls : List Str} (h : A ls) : IsPiece ls := by
  have h2 := hb ls h
  obtain ⟨a, rfl, -, h1⟩ := hc ls h
  exact piece_closed (balanced_init (by unfold pairs; decide) h2 rfl) h1

/-! ## Pieces as texts -/

theorem items_spaced : ∀ {ls : List Str}, (∀ w ∈ ls, Item w) → Items ls (spaced ls)
  | [], _ => .nil
  | w :: ls, h => by
    have hs : ∀ c, (c!" " ++ spaced ls).head? = some c → c = ' ' := by simp
    refine .cons (t := c!" ") (h w (by simp)) (.white (by simp) .nil) (items_spaced fun v hv => h v (by simp [hv])) ⟨?_, ?_⟩
    · intro c d _ h1 _ h2
      rw [hs d h1] at h2
      exact absurd h2 (by unfold NameChar; decide)
    · intro _ c h1
      rw [hs c h1]
      exact ⟨by unfold NameChar; decide, by decide, by decide⟩

theorem lexes_spaced {ls : List Str} (h : ∀ w ∈ ls, Item w) : Lexes (spaced ls) ls := ⟨[], _, rfl, .nil, items_spaced h⟩

theorem spells_spaced {α : Type} {g : G α} {L : α → Lang} (hiff : ∀ {s r a}, g.parse s = .ok r a ↔ Spells L a s r ∧ strip r = r)
    (hg : ∀ a, AllGood (L a)) {p : List Str} (hp : ∀ w ∈ p, Item w) {a : α} : g.parse (spaced p) = .ok [] a ↔ L a p := by
  rw [hiff]
  constructor
  · rintro ⟨⟨t, ls, b, h1, h2, h3, h4⟩, -⟩
    have : Lexes (spaced p) ls := ⟨t, b, h1, h2, good_items (textThen_nil.2 h4) (hg a ls h3)⟩
    exact lexes_unique this (lexes_spaced hp) ▸ h3
  · intro h
    exact ⟨⟨[], p, _, rfl, .nil, h, textThen_nil.1 (text_spaced p)⟩, rfl⟩

theorem document_spaced {s : Str} {ls : List Str} (hl : Lexes s ls) (hne : ls ≠ []) {ds : List Definition} :
    weedleParse s = .ok ds ↔ definitions ds ls := by
  rw [document_iff, document_lexes]
  constructor
  · rintro (⟨rfl, rfl⟩ | ⟨-, l, h1, h2⟩)
    · exact lexes_unique hl lexes_nil
    · exact lexes_unique hl h1 ▸ h2
  · intro h
    refine .inr ⟨?_, ls, hl, h⟩
    rintro rfl
    exact hne h

theorem lexes_items {s : Str} {ls : List Str} (hl : Lexes s ls) : ∀ w ∈ ls, Item w := by
  obtain ⟨_, _, -, -, h⟩ := hl
  exact items_all h

theorem piece_items {ls p : List Str} (h : ∀ w ∈ ls, Item w) (hp : p ∈ pieces ls) : ∀ w ∈ p, Item w := by
  intro w hw
  refine h w ?_
  rw [← flatten_pieces ls]
  exact List.mem_flatten.2 ⟨p, hp, hw⟩

theorem members_are {α : Type} {g : G α} {L : α → Lang} (hiff : ∀ {s r a}, g.parse s = .ok r a ↔ Spells L a s r ∧ strip r = r)
    (hc : ∀ a, Closed (L a)) (hb : ∀ a, AllBalanced (L a)) {m : List Str} (hm : ∀ w ∈ m, Item w) {ms : List α} :
    OneByOne (fun p a => g.parse (spaced p) = .ok [] a) (pieces m) ms ↔ concat (ms.map L) m := by
  have key : ∀ p ∈ pieces m, ∀ a, g.parse (spaced p) = .ok [] a ↔ L a p := fun p hp a =>
    spells_spaced hiff (fun a => (hc a).allGood) (piece_items hm hp)
  constructor
  · intro h
    have := concat_pieces (h.imp fun p hp a => (key p hp a).1)
    rwa [flatten_pieces] at this
  · intro h
    exact (pieces_concat (fun a ls => piece_member (hc a) (hb a)) h).imp fun p hp a => (key p hp a).2

theorem membersAre_iff {d d' : Definition} (h : withoutMembers d = some d') {m : List Str} (hm : ∀ w ∈ m, Item w) :
    MembersAre (pieces m) d ↔ inner d m := by
  cases d <;> simp only [withoutMembers, reduceCtorEq, Option.some.injEq] at h <;> first
    | exact members_are interfaceMember_iff closed_interfaceMember bal_interfaceMember hm
    | exact members_are mixinMember_iff closed_mixinMember bal_mixinMember hm
    | exact members_are namespaceMember_iff closed_namespaceMember bal_namespaceMember hm
    | exact members_are dictionaryMember_iff closed_dictionaryMember bal_dictionaryMember hm

/-! ## The braces -/

theorem balanced_even {ls : List Str} (h : Balanced ls) : ∀ p ∈ pairs, ls.count p.1 = ls.count p.2 := by
  induction h with
  | nil => intros; rfl
  | item hw _ ih =>
    intro p hp
    rw [List.count_cons_of_ne (hw p hp).1, List.count_cons_of_ne (hw p hp).2, ih p hp]
  | group hp _ _ ih ih' =>
    intro p hp'
    have h1 := ih p hp'
    have h2 := ih' p hp'
    simp only [List.cons_append, List.count_cons, List.count_append, h1, h2]
    simp [pairs] at hp hp'
    rcases hp with ⟨rfl, rfl⟩ | ⟨rfl, rfl⟩ | ⟨rfl, rfl⟩ | ⟨rfl, rfl⟩ <;> rcases hp' with rfl | rfl | rfl | rfl <;>
      simp <;> omega

theorem balanced_end {ls : List Str} (h : Balanced ls) : ∀ a b, ls = a ++ b → b.count c!"{" ≤ b.count c!"}" := by
  induction h with
  | nil => intro a b e; have : b = [] := by simp_all
           simp [this]
  | @item w ls hw h ih =>
    intro a b e
    cases a with
    | nil =>
      have := ih [] ls rfl
      have h1 := hw (c!"{", c!"}") (by decide)
      simp only [List.nil_append] at e
      subst e
      rw [List.count_cons_of_ne h1.1, List.count_cons_of_ne h1.2]
      exact this
    | cons x a =>
      simp only [List.cons_append, List.cons.injEq] at e
      exact ih a b e.2
  | @group o c ls ls' hp h h' ih ih' =>
    intro a b e
    have hc : ∀ l : List Str, (c :: l).count c!"{" = l.count c!"{" ∧ l.count c!"}" ≤ (c :: l).count c!"}" := by
      intro l
      refine ⟨?_, List.count_le_count_cons⟩
      rw [List.count_cons_of_ne]
      simp only [pairs, List.mem_cons, List.not_mem_nil, or_false, Prod.mk.injEq] at hp
      rcases hp with ⟨rfl, rfl⟩ | ⟨rfl, rfl⟩ | ⟨rfl, rfl⟩ | ⟨rfl, rfl⟩ <;> simp
    have h3 := hc ls'
    have h4 := ih' [] ls' rfl
    cases a with
    | nil =>
      simp only [List.nil_append] at e
      exact Nat.le_of_eq (e ▸ balanced_even (.group hp h h') (c!"{", c!"}") (by decide))
    | cons x a =>
      simp only [List.cons_append, List.cons.injEq] at e
      rcases List.append_eq_append_iff.1 e.2 with ⟨x, rfl, e2⟩ | ⟨x, rfl, rfl⟩
      · cases x with
        | nil =>
          simp only [List.nil_append] at e2
          subst e2
          omega
        | cons y x =>
          simp only [List.cons_append, List.cons.injEq] at e2
          exact ih' x b e2.2
      · have h5 := ih a x rfl
        rw [List.count_append, List.count_append]
        omega

theorem body_unique {a a' m m' : List Str} (hm : Balanced m) (hm' : Balanced m') (e : a ++ c!"{" :: m = a' ++ c!"{" :: m') : a = a' ∧ m = m' := by
  have key : ∀ {x m m' : List Str}, Balanced m → Balanced m' → c!"{" :: m = x ++ c!"{" :: m' → x = [] ∧ m = m' := by
    intro x m m' h h' e
    cases x with
    | nil => simpa using e
    | cons y x =>
      simp only [List.cons_append, List.cons.injEq] at e
      have h1 := balanced_end h _ _ e.2
      have h2 := balanced_even h' (c!"{", c!"}") (by decide)
      rw [List.count_cons_self, List.count_cons_of_ne (by decide)] at h1
      simp only at h2
      omega
  rcases List.append_eq_append_iff.1 e with ⟨x, rfl, e2⟩ | ⟨x, rfl, e2⟩
  · obtain ⟨rfl, rfl⟩ := key hm hm' e2
    simp
  · obtain ⟨rfl, rfl⟩ := key hm' hm e2
    simp

theorem body_unique_end {a a' m m' : List Str} (hm : Balanced m) (hm' : Balanced m')
    (e : a ++ c!"{" :: (m ++ [c!"}", c!";"]) = a' ++ c!"{" :: (m' ++ [c!"}", c!";"])) : a = a' ∧ m = m' := by
  have : (a ++ c!"{" :: m) ++ [c!"}", c!";"] = (a' ++ c!"{" :: m') ++ [c!"}", c!";"] := by simpa using e
  exact body_unique hm hm' (List.append_cancel_right this)

theorem definitions_one {d : Definition} {p : List Str} : definitions [d] p ↔ definition d p := by
  constructor
  · rintro ⟨x, y, rfl, h, rfl⟩
    simpa using h
  · intro h
    exact ⟨p, [], by simp, h, rfl⟩

theorem cut_ne : ∀ (ls : List Str) (n : Nat) (a : List Str), ∀ p ∈ cut n a ls, p ≠ []
  | [], n, a => by
    intro p hp
    simp only [cut] at hp
    split at hp <;> simp_all
  | w :: ls, n, a => by
    intro p hp
    simp only [cut] at hp
    split at hp
    · exact cut_ne ls _ _ p hp
    · split at hp
      · exact cut_ne ls _ _ p hp
      · split at hp
        · rcases List.mem_cons.1 hp with rfl | hp
          · simp
          · exact cut_ne ls _ _ p hp
        · exact cut_ne ls _ _ p hp

theorem pieces_ne {ls p : List Str} (h : p ∈ pieces ls) : p ≠ [] := cut_ne ls 0 [] p h

/-! ## Pieces of pieces -/

/-- Being behind the items `a`, with `n` brackets open and no cut so far. -/
def Behind (n : Nat) (a : List Str) : Prop := ∀ r, cut 0 [] (a ++ r) = cut n a r

theorem cut_pieces : ∀ (ls : List Str) (n : Nat) (a : List Str), Behind n a → ∀ p ∈ cut n a ls, pieces p = [p]
  | [], n, a, h => by
    intro p hp
    have h1 := h []
    rw [List.append_nil] at h1
    simp only [cut] at hp h1
    split at hp
    · simp at hp
    · next hne =>
      rw [if_neg hne] at h1
      simp only [List.mem_singleton] at hp
      subst hp
      exact h1
  | w :: ls, n, a, h => by
    intro p hp
    have h1 : ∀ r, cut 0 [] (a ++ [w] ++ r) = cut n a (w :: r) := fun r => by rw [List.append_assoc]; exact h (w :: r)
    simp only [cut] at hp h1
    split at hp
    · next hc => simp only [if_pos hc] at h1; exact cut_pieces ls _ _ h1 p hp
    · next ho =>
      simp only [if_neg ho] at h1
      split at hp
      · next hc => simp only [if_pos hc] at h1; exact cut_pieces ls _ _ h1 p hp
      · next hc =>
        simp only [if_neg hc] at h1
        split at hp
        · next hw =>
          simp only [if_pos hw] at h1
          rcases List.mem_cons.1 hp with rfl | hp
          · have h2 := h1 []
            rw [List.append_nil] at h2
            simpa [pieces, cut] using h2
          · exact cut_pieces ls 0 [] (fun r => rfl) p hp
        · next hw => simp only [if_neg hw] at h1; exact cut_pieces ls _ _ h1 p hp

theorem pieces_piece {ls p : List Str} (h : p ∈ pieces ls) : pieces p = [p] := cut_pieces ls 0 [] (fun _ => rfl) p h

/-! ## The first definition of a text -/

theorem items_textThen : ∀ {a l : List Str} {b : Str}, Items (a ++ l) b → ∃ m, TextThen m a b ∧ Items l m
  | [], _, b, h => ⟨b, .nil, h⟩
  | w :: a, l, _, .cons _ ht hs ha => by
    obtain ⟨m, h1, h2⟩ := items_textThen hs
    exact ⟨m, .cons ht h1 ha.1, h2⟩

theorem first_definition {s : Str} {p l : List Str} (hl : Lexes s (p ++ l)) {d : Definition} (hd : definition d p) :
    ∃ r, G.definition.parse s = .ok r d := by
  obtain ⟨t, b, h1, h2, h3⟩ := hl
  obtain ⟨m, h4, h5⟩ := items_textThen h3
  exact ⟨m, definition_iff.2 ⟨⟨t, p, b, h1, h2, hd, h4⟩, items_strip h5⟩⟩

theorem rest_lexes {s r : Str} {ls : List Str} (hl : Lexes s ls) {d : Definition} (h : G.definition.parse s = .ok r d) :
    ∃ p l, ls = p ++ l ∧ definition d p ∧ Lexes r l := by
  obtain ⟨⟨t, p, b, h1, h2, h3, h4⟩, -⟩ := definition_iff.1 h
  obtain ⟨b', rfl, h5⟩ := textThen_text h4
  have h6 := good_items h5 (allGood_definition d p h3)
  obtain ⟨t', b2, h7, h8, h9⟩ := hl
  obtain ⟨x, rfl⟩ := semi_definition d p h3
  have h10 := congrArg strip (h1.symm.trans h7)
  rw [strip_trivia h2, strip_trivia h8, items_strip h9, (items_ne_nil h6 (by simp)).2] at h10
  obtain ⟨l, e, h11⟩ := items_prefix h6 (h10 ▸ h9)
  exact ⟨_, l, e, h3, h11⟩

end Verif
