import Verif.Spec.Lists
import Verif.Proof.Pieces
import Verif.Proof.Wholes

/-! # Cutting a list at its commas -/

namespace Verif
open Nom Spec

/-! ## Cutting -/

theorem split_inside {u : List Str} (h : Balanced u) : ∀ (n : Nat) (a r : List Str), split (n + 1) a (u ++ r) = split (n + 1) (a ++ u) r := by
  induction h with
  | nil => simp
  | item hw _ ih =>
    intro n a r
    obtain ⟨h1, h2⟩ := flat_cases hw
    simp [split, h1, h2, ih]
  | @group o c ls ls' hp _ _ ih ih' =>
    intro n a r
    obtain ⟨h1, h2, h3⟩ := pair_cases hp
    have e : o :: ls ++ c :: ls' ++ r = o :: (ls ++ (c :: (ls' ++ r))) := by simp
    rw [e]
    simp [split, h1, h2, h3, ih, ih']

/-- No cut inside of these items. -/
def Uncut (u : List Str) : Prop := ∀ (n : Nat) (a r : List Str), split n a (u ++ r) = split n (a ++ u) r

/-- The spellings are not cut. -/
def Bare (A : Lang) : Prop := ∀ ls, A ls → Uncut ls

theorem isPlain_flat {w : Str} (h : isPlain w = true) : ∀ p ∈ pairs, w ≠ p.1 ∧ w ≠ p.2 := by
  intro p hp
  have := List.all_eq_true.1 h p hp
  simpa using this

theorem uncut_one {w : Str} (h : isPlain w = true) (hc : w ≠ c!",") : Uncut [w] := by
  intro n a r
  obtain ⟨h1, h2⟩ := flat_cases (isPlain_flat h)
  simp [split, h1, h2, hc]

namespace Bare

variable {A B : Lang} {i : Str}

theorem eps : Bare eps := by rintro _ rfl; intro n a r; simp

theorem tok {w : Str} (h : isPlain w = true) (hc : w ≠ c!",") : Bare (tok w) := by rintro _ rfl; exact uncut_one h hc

theorem seq (ha : Bare A) (hb : Bare B) : Bare (A ⨾ B) := by
  rintro _ ⟨x, y, rfl, h1, h2⟩ n a r
  rw [List.append_assoc, ha x h1, hb y h2, List.append_assoc]

theorem cons {w : Str} (h : isPlain w = true) (hc : w ≠ c!",") (hb : Bare B) : Bare (Spec.tok w ⨾ B) := seq (tok h hc) hb

theorem mid {o c : Str} (h : (o, c) ∈ pairs) (ha : AllBalanced A) : Bare (Spec.tok o ⨾ A ⨾ Spec.tok c) := by
  rintro _ ⟨_, _, rfl, rfl, x, _, rfl, h1, rfl⟩ n a r
  obtain ⟨h2, h3, h4⟩ := pair_cases h
  have e : [o] ++ (x ++ [c]) ++ r = o :: (x ++ (c :: r)) := by simp
  rw [e]
  simp [split, h2, h3, h4, split_inside (ha x h1)]

theorem parens (ha : AllBalanced A) : Bare (parens A) := mid (by decide) ha
theorem brackets (ha : AllBalanced A) : Bare (brackets A) := mid (by decide) ha
theorem angles (ha : AllBalanced A) : Bare (angles A) := mid (by decide) ha

theorem opt (q : Bool) {w : Str} (h : isPlain w = true) (hc : w ≠ c!",") : Bare (optTok q w) := by
  cases q
  · exact eps
  · exact tok h hc

theorem avoiding {ps : List (List Str)} (ha : Bare A) : Bare (avoiding ps A) := fun ls h => ha ls h.1

theorem name (i : Str) : Bare (name i) := by
  rintro ls ⟨h1, h2⟩
  obtain ⟨c, v, rfl, hc, -⟩ := word_iff.1 h1
  have hn : c ≠ ',' := by rintro rfl; exact absurd hc (by decide)
  rcases h2 with rfl | rfl
  · exact uncut_one (plain_head (AllBalanced.alpha hc)) (by simp [hn])
  · exact uncut_one (plain_head (by decide)) (by simp)

theorem typeName {l : List Str} (i : Str) : Bare (typeName l i) := by
  rintro ls ⟨h1, h2⟩
  refine name i ls ⟨h1, ?_⟩
  rcases h2 with ⟨h, -⟩ | h
  · exact .inl h
  · exact .inr h

theorem named (ha : Bare A) : Bare (named A i) := by
  rintro _ ⟨a, b, rfl, h1, h2, h3⟩
  exact seq ha (name i) _ ⟨a, b, rfl, h1, h2⟩

theorem string (v : Str) : Bare (string v) := by
  rintro ls ⟨h1, rfl⟩
  exact uncut_one (plain_head (by decide)) (by simp)

theorem number {re : Regex} (hre : ∀ v, re.Matches v → Numeral v) (v : Str) : Bare (literal re v) := by
  rintro ls ⟨h1, rfl⟩
  have hb := AllBalanced.number hre v [v] ⟨h1, rfl⟩
  obtain ⟨c, v, rfl, hc⟩ := Number.first (hre v h1)
  unfold IsDig at hc
  have hn : c ≠ ',' := by rintro rfl; exact absurd hc (by decide)
  refine uncut_one (plain_head fun h => ?_) (by simp [hn])
  simp at h
  rcases h with rfl | rfl | rfl | rfl | rfl | rfl | rfl | rfl <;> exact absurd hc (by decide)

end Bare

/-! ## Values, types, attributes and arguments -/

theorem bare_float (f : FloatLit) : Bare (floatLit f) := by
  cases f
  · exact .number (fun _ h => .inr (.inr (.inr h))) _
  all_goals exact .tok (by decide +kernel) (by decide)

theorem bare_integer (i : IntegerLit) : Bare (integerLit i) := by
  cases i
  · exact .number (fun _ h => .inl h) _
  · exact .number (fun _ h => .inr (.inl h)) _
  · exact .number (fun _ h => .inr (.inr (.inl h))) _

theorem bare_defaultValue (d : DefaultValue) : Bare (defaultValue d) := by
  cases d with
  | float f => exact bare_float f
  | integer i => exact bare_integer i
  | string v => exact .string v
  | boolean b => cases b <;> exact .tok (by decide +kernel) (by decide)
  | emptyArray =>
    rintro _ ⟨_, _, rfl, rfl, rfl⟩
    exact Bare.mid (o := c!"[") (c := c!"]") (by decide) .eps _ ⟨[c!"["], [c!"]"], rfl, rfl, [], _, rfl, rfl, rfl⟩
  | emptyDictionary =>
    rintro _ ⟨_, _, rfl, rfl, rfl⟩
    exact Bare.mid (o := c!"{") (c := c!"}") (by decide) .eps _ ⟨[c!"{"], [c!"}"], rfl, rfl, [], _, rfl, rfl, rfl⟩
  | null => exact .tok (by decide +kernel) (by decide)

theorem bare_default (d : Option DefaultValue) : Bare (Spec.default d) := by
  cases d with
  | none => exact .eps
  | some d => exact .cons (by decide +kernel) (by decide) (bare_defaultValue d)

theorem bare_null {A : Lang} (h : Bare A) (q : Bool) : Bare (A ⨾ optTok q c!"?") := .seq h (.opt q (by decide) (by decide))

theorem bare_nonAnyType (t : NonAnyType) : Bare (nonAnyType t) := by
  cases t with
  | promise r => simp only [nonAnyType]; exact .cons (by decide +kernel) (by decide) (.angles (bal_returnType r))
  | integer t q =>
    simp only [nonAnyType]
    refine bare_null ?_ q
    cases t with
    | longLong u => exact .seq (.opt u (by decide +kernel) (by decide)) (.cons (by decide +kernel) (by decide) (.tok (by decide +kernel) (by decide)))
    | long u => exact .seq (.opt u (by decide +kernel) (by decide)) (.tok (by decide +kernel) (by decide))
    | short u => exact .seq (.opt u (by decide +kernel) (by decide)) (.tok (by decide +kernel) (by decide))
  | floatingPoint t q =>
    simp only [nonAnyType]
    refine bare_null ?_ q
    cases t <;> exact .seq (.opt _ (by decide +kernel) (by decide)) (.tok (by decide +kernel) (by decide))
  | builtin t q => simp only [nonAnyType]; exact bare_null (.tok (plain_builtin t) (by cases t <;> decide)) q
  | sequence t q => simp only [nonAnyType]; exact bare_null (.cons (by decide +kernel) (by decide) (.angles (bal_type t))) q
  | frozenArray t q => simp only [nonAnyType]; exact bare_null (.cons (by decide +kernel) (by decide) (.angles (bal_type t))) q
  | record k v q =>
    simp only [nonAnyType]
    exact bare_null (.cons (by decide +kernel) (by decide) (.angles (.seq (bal_recordKeyType k) (.seq bal_comma (bal_type v))))) q
  | identifier i q => simp only [nonAnyType]; exact bare_null (.typeName i) q

theorem bare_type (t : Ty) : Bare (type t) := by
  cases t with
  | union ms q => simp only [type]; exact bare_null (.parens (bal_unionMembers ms)) q
  | single t =>
    simp only [type]
    cases t with
    | any => simp only [singleType]; exact .tok (by decide +kernel) (by decide)
    | nonAny t => simp only [singleType]; exact .avoiding (bare_nonAnyType t)

theorem bare_attributes (as : Option (List ExtAttr)) : Bare (attributes as) := by
  cases as with
  | none => simp only [attributes]; exact .eps
  | some as => simp only [attributes]; exact .brackets (bal_extAttrs as)

theorem bare_namedAttributed (t : AttributedType) (i : Str) : Bare (namedAttributed t i) := by
  cases t with
  | mk as t => simp only [namedAttributed]; exact .seq (bare_attributes as) (.named (bare_type t))

theorem bare_argument (a : Argument) : Bare (argument a) := by
  cases a with
  | single as o t i d =>
    cases o with
    | true =>
      simp only [argument, if_true]
      exact .seq (bare_attributes as) (.cons (by decide +kernel) (by decide) (.seq (bare_namedAttributed t i) (bare_default d)))
    | false =>
      simp only [argument, Bool.false_eq_true, if_false]
      refine .seq (bare_attributes as) ?_
      rintro ls ⟨-, h⟩
      exact Bare.avoiding (bare_namedAttributed t i) ls h
  | variadic as t i =>
    simp only [argument]
    exact .seq (bare_attributes as) (.seq (bare_type t) (.cons (by decide) (by decide) (.name i)))

theorem bare_extAttr (t : ExtAttr) : Bare (extAttr t) := by
  cases t with
  | argList i args => simp only [extAttr]; exact .seq (.name i) (.parens (bal_arguments args))
  | namedArgList l r args =>
    simp only [extAttr]
    exact .seq (.name l) (.cons (by decide) (by decide) (.seq (.name r) (.parens (bal_arguments args))))
  | identList i is =>
    simp only [extAttr]
    exact .seq (.name i) (.cons (by decide) (by decide) (.parens (.sepBy bal_comma fun j _ => .name j)))
  | ident l r =>
    simp only [extAttr]
    refine .seq (.name l) (.cons (by decide) (by decide) ?_)
    cases r with
    | identifier i => exact .name i
    | string v => exact .string v
  | wildcard l => simp only [extAttr]; exact .seq (.name l) (.cons (by decide) (by decide) (.tok (by decide) (by decide)))
  | noArgs i => simp only [extAttr]; exact .name i

/-! ## Parts -/

/-- The parts with commas between them. -/
def joined : List (List Str) → List Str
  | [] => []
  | [p] => p
  | p :: q :: ps => p ++ c!"," :: joined (q :: ps)

theorem joined_cons {p : List Str} : ∀ {ps : List (List Str)}, ps ≠ [] → joined (p :: ps) = p ++ c!"," :: joined ps
  | [], h => absurd rfl h
  | _ :: _, _ => rfl

theorem split_ne : ∀ (ls : List Str) (n : Nat) (a : List Str), split n a ls ≠ []
  | [], _, _ => by simp [split]
  | w :: ls, n, a => by
    simp only [split]
    (repeat' split) <;> first | exact split_ne _ _ _ | simp

theorem joined_split : ∀ (ls : List Str) (n : Nat) (a : List Str), joined (split n a ls) = a ++ ls
  | [], _, _ => by simp [split, joined]
  | w :: ls, n, a => by
    simp only [split]
    split
    · rw [joined_split ls]; simp
    · split
      · rw [joined_split ls]; simp
      · split
        · next h => rw [joined_cons (split_ne ls _ _), joined_split ls, h.1]; simp
        · rw [joined_split ls]; simp

theorem joined_parts (ls : List Str) : joined (parts ls) = ls := by
  unfold parts
  split
  · next h => rw [h]; rfl
  · rw [joined_split]; rfl

theorem sepBy_joined {α : Type} {L : α → Lang} : ∀ {as : List α} {ps : List (List Str)}, OneByOne (fun p a => L a p) ps as →
    sepBy comma (as.map L) (joined ps)
  | _, _, .nil => rfl
  | _, _, .cons h .nil => h
  | _, _, .cons h (.cons h' hs) => ⟨_, _, rfl, h, [c!","], _, rfl, rfl, sepBy_joined (.cons h' hs)⟩

theorem split_sepBy {α : Type} {L : α → Lang} (hL : ∀ a, Bare (L a)) : ∀ {as : List α} {ls : List Str}, as ≠ [] →
    sepBy comma (as.map L) ls → OneByOne (fun p a => L a p) (split 0 [] ls) as
  | [], _, h, _ => absurd rfl h
  | [a], ls, _, h => by
    have h1 := hL a ls h 0 [] []
    rw [List.append_nil] at h1
    rw [h1]
    exact .cons h .nil
  | a :: b :: as, _, _, ⟨x, _, rfl, h1, _, y, rfl, rfl, h2⟩ => by
    have h3 : split 0 [] (x ++ (c!"," :: y)) = x :: split 0 [] y := by
      rw [hL a x h1]
      have : c!"," ∉ openings := by decide
      have h' : c!"," ∉ closings := by decide
      simp [split, this, h']
    rw [List.singleton_append, h3]
    exact .cons h1 (split_sepBy hL (by simp) h2)

theorem sepBy_ne {α : Type} {L : α → Lang} (hn : ∀ a, ¬ L a []) : ∀ {as : List α}, as ≠ [] → ¬ sepBy comma (as.map L) []
  | [], h, _ => h rfl
  | [a], _, h => hn a h
  | a :: b :: as, _, h => by
    obtain ⟨x, z, e, -, _, y, hz, rfl, -⟩ := h
    rw [hz] at e
    simp at e

theorem parts_sepBy {α : Type} {L : α → Lang} (hL : ∀ a, Bare (L a)) (hn : ∀ a, ¬ L a []) {as : List α} {ls : List Str} :
    sepBy comma (as.map L) ls ↔ OneByOne (fun p a => L a p) (parts ls) as := by
  constructor
  · intro h
    by_cases ha : as = []
    · subst ha
      cases h
      exact .nil
    · unfold parts
      rw [if_neg (by rintro rfl; exact sepBy_ne hn ha h)]
      exact split_sepBy hL ha h
  · intro h
    have := sepBy_joined h
    rwa [joined_parts] at this

theorem Spec.OneByOne.iff {α β : Type} {R S : α → β → Prop} {as : List α} {bs : List β} (h : ∀ a ∈ as, ∀ b, R a b ↔ S a b) :
    OneByOne R as bs ↔ OneByOne S as bs :=
  ⟨.imp fun a ha b => (h a ha b).1, .imp fun a ha b => (h a ha b).2⟩

theorem parts_items {ls p : List Str} (h : ∀ w ∈ ls, Item w) (hp : p ∈ parts ls) : ∀ w ∈ p, Item w := by
  have key : ∀ {ps : List (List Str)}, (∀ w ∈ joined ps, Item w) → p ∈ ps → ∀ w ∈ p, Item w := by
    intro ps
    induction ps with
    | nil => intro _ h; simp at h
    | cons q ps ih =>
      intro h hp w hw
      by_cases hps : ps = []
      · subst hps
        simp only [List.mem_singleton] at hp
        subst hp
        exact h w hw
      · rw [joined_cons hps] at h
        rcases List.mem_cons.1 hp with rfl | hp
        · exact h w (by simp [hw])
        · exact ih (fun v hv => h v (by simp [hv])) hp w hw
  exact key (by rwa [joined_parts]) hp

/-! ## Alternatives -/

theorem alt_inside {u : List Str} (h : Balanced u) : ∀ (n : Nat) (a : List Str) (g : Bool) (r : List Str),
    alternativesFrom (n + 1) a g (u ++ r) = alternativesFrom (n + 1) (a ++ u) g r := by
  induction h with
  | nil => simp
  | item hw _ ih =>
    intro n a g r
    obtain ⟨h1, h2⟩ := flat_cases hw
    simp [alternativesFrom, h1, h2, ih]
  | @group o c ls ls' hp _ _ ih ih' =>
    intro n a g r
    obtain ⟨h1, h2, h3⟩ := pair_cases hp
    have e : o :: ls ++ c :: ls' ++ r = o :: (ls ++ (c :: (ls' ++ r))) := by simp
    rw [e]
    simp [alternativesFrom, h1, h2, h3, ih, ih']

/-- From `g` to `g'` without a cut. -/
def Goes (g g' : Bool) (A : Lang) : Prop := ∀ u, A u → ∀ a r, alternativesFrom 0 a g (u ++ r) = alternativesFrom 0 (a ++ u) g' r

namespace Goes

variable {A B : Lang} {g g' g'' : Bool}

theorem eps : Goes g g eps := by rintro _ rfl a r; simp

theorem seq (ha : Goes g g' A) (hb : Goes g' g'' B) : Goes g g'' (A ⨾ B) := by
  rintro _ ⟨x, y, rfl, h1, h2⟩ a r
  rw [List.append_assoc, ha x h1, hb y h2, List.append_assoc]

theorem mid {o c : Str} (h : (o, c) ∈ pairs) (ha : AllBalanced A) : Goes g (g || o != c!"[") (Spec.tok o ⨾ A ⨾ Spec.tok c) := by
  rintro _ ⟨_, _, rfl, rfl, x, _, rfl, h1, rfl⟩ a r
  obtain ⟨h2, h3, h4⟩ := pair_cases h
  have e : [o] ++ (x ++ [c]) ++ r = o :: (x ++ (c :: r)) := by simp
  rw [e]
  simp [alternativesFrom, h2, h3, h4, alt_inside (ha x h1)]

theorem angles (ha : AllBalanced A) : Goes true true (angles A) := mid (by decide) ha
theorem parens (ha : AllBalanced A) : Goes false true (parens A) := mid (by decide) ha
theorem brackets (ha : AllBalanced A) : Goes false false (brackets A) := mid (by decide) ha

theorem one {w : Str} (h : isPlain w = true) (hg : g = false ∨ w ≠ c!"or") (a r : List Str) :
    alternativesFrom 0 a g (w :: r) = alternativesFrom 0 (a ++ [w]) true r := by
  obtain ⟨h1, h2⟩ := flat_cases (isPlain_flat h)
  have : ¬ (w = c!"or" ∧ g = true) := by
    rintro ⟨rfl, rfl⟩
    rcases hg with h | h
    · cases h
    · exact h rfl
  simp [alternativesFrom, h1, h2, this]

theorem first {w : Str} (h : isPlain w = true) : Goes false true (tok w) := by
  rintro _ rfl a r
  exact one h (.inl rfl) a r

theorem tok {w : Str} (h : isPlain w = true) (hw : w ≠ c!"or") : Goes g true (tok w) := by
  rintro _ rfl a r
  exact one h (.inr hw) a r

theorem opt (q : Bool) {w : Str} (h : isPlain w = true) (hw : w ≠ c!"or") : Goes true true (optTok q w) := by
  cases q
  · exact eps
  · exact tok h hw

theorem query (q : Bool) : Goes true true (optTok q c!"?") := opt q (by decide) (by decide)

theorem opted {q : Bool} {w : Str} (h : isPlain w = true) (hw : w ≠ c!"or") (hA : ∀ g, Goes g true A) : Goes false true (optTok q w ⨾ A) := by
  cases q
  · rintro _ ⟨_, y, rfl, rfl, h2⟩ a r
    exact hA false y h2 a r
  · exact seq (tok h hw) (hA true)

theorem typeName {l : List Str} (i : Str) : Goes false true (typeName l i) := by
  rintro ls ⟨h1, h2⟩ a r
  obtain ⟨c, v, rfl, hc, -⟩ := word_iff.1 h1
  rcases h2 with ⟨rfl, -⟩ | rfl
  · exact one (plain_head (AllBalanced.alpha hc)) (.inl rfl) a r
  · exact one (plain_head (by decide)) (.inl rfl) a r

end Goes

theorem goes_nonAnyType (t : NonAnyType) : Goes false true (nonAnyType t) := by
  cases t with
  | promise r => simp only [nonAnyType]; exact .seq (.first (by decide +kernel)) (.angles (bal_returnType r))
  | integer t q =>
    simp only [nonAnyType]
    refine .seq ?_ (.query q)
    cases t with
    | longLong u => exact .opted (by decide +kernel) (by decide) fun g => .seq (.tok (by decide +kernel) (by decide)) (.tok (by decide +kernel) (by decide))
    | long u => exact .opted (by decide +kernel) (by decide) fun g => .tok (by decide +kernel) (by decide)
    | short u => exact .opted (by decide +kernel) (by decide) fun g => .tok (by decide +kernel) (by decide)
  | floatingPoint t q =>
    simp only [nonAnyType]
    refine .seq ?_ (.query q)
    cases t <;> exact .opted (by decide +kernel) (by decide) fun g => .tok (by decide +kernel) (by decide)
  | builtin t q => simp only [nonAnyType]; exact .seq (.first (plain_builtin t)) (.query q)
  | sequence t q => simp only [nonAnyType]; exact .seq (.seq (.first (by decide +kernel)) (.angles (bal_type t))) (.query q)
  | frozenArray t q => simp only [nonAnyType]; exact .seq (.seq (.first (by decide +kernel)) (.angles (bal_type t))) (.query q)
  | record k v q =>
    simp only [nonAnyType]
    exact .seq (.seq (.first (by decide +kernel)) (.angles (.seq (bal_recordKeyType k) (.seq bal_comma (bal_type v))))) (.query q)
  | identifier i q => simp only [nonAnyType]; exact .seq (.typeName i) (.query q)

theorem goes_unionMember (m : UnionMember) : Goes false true (unionMember m) := by
  cases m with
  | single as t =>
    simp only [unionMember]
    refine .seq (g' := false) ?_ (goes_nonAnyType t)
    cases as with
    | none => simp only [attributes]; exact .eps
    | some as => simp only [attributes]; exact .brackets (bal_extAttrs as)
  | union ms q => simp only [unionMember]; exact .seq (.parens (bal_unionMembers ms)) (.query q)

/-- The alternatives with `or` between them. -/
def orJoined : List (List Str) → List Str
  | [] => []
  | [p] => p
  | p :: q :: ps => p ++ c!"or" :: orJoined (q :: ps)

theorem orJoined_cons {p : List Str} : ∀ {ps : List (List Str)}, ps ≠ [] → orJoined (p :: ps) = p ++ c!"or" :: orJoined ps
  | [], h => absurd rfl h
  | _ :: _, _ => rfl

theorem alt_ne : ∀ (ls : List Str) (n : Nat) (a : List Str) (g : Bool), alternativesFrom n a g ls ≠ []
  | [], _, _, _ => by simp [alternativesFrom]
  | w :: ls, n, a, g => by
    simp only [alternativesFrom]
    (repeat' split) <;> first | exact alt_ne _ _ _ _ | simp

theorem orJoined_alt : ∀ (ls : List Str) (n : Nat) (a : List Str) (g : Bool), orJoined (alternativesFrom n a g ls) = a ++ ls
  | [], _, _, _ => by simp [alternativesFrom, orJoined]
  | w :: ls, n, a, g => by
    simp only [alternativesFrom]
    split
    · rw [orJoined_alt ls]; simp
    · split
      · rw [orJoined_alt ls]; simp
      · split
        · rw [orJoined_alt ls]; simp
        · split
          · next h => rw [orJoined_cons (alt_ne ls _ _ _), orJoined_alt ls, h.1]; simp
          · rw [orJoined_alt ls]; simp

theorem orJoined_alternatives (ls : List Str) : orJoined (alternatives ls) = ls := by
  unfold alternatives
  split
  · next h => rw [h]; rfl
  · rw [orJoined_alt]; rfl

theorem sepBy_orJoined {α : Type} {L : α → Lang} : ∀ {as : List α} {ps : List (List Str)}, OneByOne (fun p a => L a p) ps as →
    sepBy (tok c!"or") (as.map L) (orJoined ps)
  | _, _, .nil => rfl
  | _, _, .cons h .nil => h
  | _, _, .cons h (.cons h' hs) => ⟨_, _, rfl, h, [c!"or"], _, rfl, rfl, sepBy_orJoined (.cons h' hs)⟩

theorem alt_sepBy {α : Type} {L : α → Lang} (hL : ∀ a, Goes false true (L a)) : ∀ {as : List α} {ls : List Str}, as ≠ [] →
    sepBy (tok c!"or") (as.map L) ls → OneByOne (fun p a => L a p) (alternativesFrom 0 [] false ls) as
  | [], _, h, _ => absurd rfl h
  | [a], ls, _, h => by
    have h1 := hL a ls h [] []
    rw [List.append_nil] at h1
    rw [h1]
    exact .cons h .nil
  | a :: b :: as, _, _, ⟨x, _, rfl, h1, _, y, rfl, rfl, h2⟩ => by
    have h3 : alternativesFrom 0 [] false (x ++ (c!"or" :: y)) = x :: alternativesFrom 0 [] false y := by
      rw [hL a x h1]
      have : c!"or" ∉ openings := by decide
      have h' : c!"or" ∉ closings := by decide
      simp [alternativesFrom, this, h']
    rw [List.singleton_append, h3]
    exact .cons h1 (alt_sepBy hL (by simp) h2)

theorem alternatives_sepBy {α : Type} {L : α → Lang} (hL : ∀ a, Goes false true (L a)) (hn : ∀ a, ¬ L a []) {as : List α} {ls : List Str} :
    sepBy (tok c!"or") (as.map L) ls ↔ OneByOne (fun p a => L a p) (alternatives ls) as := by
  constructor
  · intro h
    by_cases ha : as = []
    · subst ha
      cases h
      exact .nil
    · unfold alternatives
      have h0 := alt_sepBy hL ha h
      split
      · next e =>
        subst e
        cases h0 with
        | cons h1 _ => exact absurd h1 (hn _)
      · exact h0
  · intro h
    have := sepBy_orJoined h
    rwa [orJoined_alternatives] at this

theorem alternatives_items {ls p : List Str} (h : ∀ w ∈ ls, Item w) (hp : p ∈ alternatives ls) : ∀ w ∈ p, Item w := by
  have key : ∀ {ps : List (List Str)}, (∀ w ∈ orJoined ps, Item w) → p ∈ ps → ∀ w ∈ p, Item w := by
    intro ps
    induction ps with
    | nil => intro _ h; simp at h
    | cons q ps ih =>
      intro h hp w hw
      by_cases hps : ps = []
      · subst hps
        simp only [List.mem_singleton] at hp
        subst hp
        exact h w hw
      · rw [orJoined_cons hps] at h
        rcases List.mem_cons.1 hp with rfl | hp
        · exact h w (by simp [hw])
        · exact ih (fun v hv => h v (by simp [hv])) hp w hw
  exact key (by rwa [orJoined_alternatives]) hp

end Verif
