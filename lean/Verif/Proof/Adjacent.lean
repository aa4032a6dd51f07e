import Verif.Proof.Collect
import Verif.Proof.Lexer

/-!
# Which lexemes can follow each other

The spellings of all ASTs are contained in a context-free language (`rule`) over tagged lexemes.
A pair of tags that no rule puts next to each other does not occur in any document.
-/

namespace Verif
open Nom Spec

/-! ## Expressions -/

/-- A lexeme with a number for the context it occurs in. -/
inductive Tag where
  | w (text : Str) (ctx : Nat)
  | name (ctx : Nat)
  | str
  | num
  deriving DecidableEq

def Tag.has : Tag → Str → Prop
  | .w t _, x => x = t
  | .name _, x => ∃ i, Spec.name i [x]
  | .str, x => ∃ v, Spec.string v [x]
  | .num, x => Number x

/-- The recursive rules. -/
inductive Rule where
  | type | nonAny | unionMember | attributes | argument
  deriving DecidableEq

inductive E where
  | eps
  | tag (t : Tag)
  | nt (n : Rule)
  | seq (a b : E)
  | alt (a b : E)
  | star (a : E)

namespace E

def opt (a : E) : E := .alt .eps a
def tok (w : Str) (ctx : Nat := 0) : E := .tag (.w w ctx)
def name (ctx : Nat) : E := .tag (.name ctx)
def sep (s a : E) : E := .opt (.seq a (.star (.seq s a)))
/-- any of the words -/
def words : List Str → E
  | [] => .eps
  | [w] => tok w
  | w :: ws => .alt (tok w) (words ws)

infixr:60 " ⬩ " => E.seq
infixr:55 " ⫾ " => E.alt

end E

inductive Der (rule : Rule → E) : E → List Tag → Prop where
  | eps : Der rule .eps []
  | tag {t : Tag} : Der rule (.tag t) [t]
  | nt {n : Rule} {ts : List Tag} (h : Der rule (rule n) ts) : Der rule (.nt n) ts
  | seq {a b : E} {ts us : List Tag} (ha : Der rule a ts) (hb : Der rule b us) : Der rule (.seq a b) (ts ++ us)
  | left {a b : E} {ts : List Tag} (h : Der rule a ts) : Der rule (.alt a b) ts
  | right {a b : E} {ts : List Tag} (h : Der rule b ts) : Der rule (.alt a b) ts
  | starNil {a : E} : Der rule (.star a) []
  | starCons {a : E} {ts us : List Tag} (ha : Der rule a ts) (hb : Der rule (.star a) us) :
      Der rule (.star a) (ts ++ us)

/-! ## Adjacent pairs -/

/-- What is known about the rules: may be empty, may begin with a tag in `Q`, may end with a tag in `P`. -/
structure Table where
  nul : Rule → Bool
  first : Rule → Bool
  last : Rule → Bool

namespace E

variable (T : Table) (P Q : Tag → Bool)

def nul : E → Bool
  | .eps => true
  | .tag _ => false
  | .nt n => T.nul n
  | .seq a b => nul a && nul b
  | .alt a b => nul a || nul b
  | .star _ => true

def first : E → Bool
  | .eps => false
  | .tag t => Q t
  | .nt n => T.first n
  | .seq a b => first a || (nul T a && first b)
  | .alt a b => first a || first b
  | .star a => first a

def last : E → Bool
  | .eps => false
  | .tag t => P t
  | .nt n => T.last n
  | .seq a b => last b || (nul T b && last a)
  | .alt a b => last a || last b
  | .star a => last a

/-- No tag in `P` is followed by one in `Q`. -/
def safe : E → Bool
  | .eps => true
  | .tag _ => true
  | .nt _ => true
  | .seq a b => safe a && safe b && !(last T P a && first T Q b)
  | .alt a b => safe a && safe b
  | .star a => safe a && !(last T P a && first T Q a)

end E

/-- The table is right about the rules, and these never put `P` before `Q`. -/
def Table.ok (T : Table) (rule : Rule → E) (P Q : Tag → Bool) (n : Rule) : Bool :=
  (!(rule n).nul T || T.nul n) && (!(rule n).first T Q || T.first n) && (!(rule n).last T P || T.last n) &&
    (rule n).safe T P Q

/-- No `P` directly before a `Q`. -/
def Never (P Q : Tag → Bool) : List Tag → Prop
  | [] => True
  | [_] => True
  | x :: y :: ts => ¬ (P x = true ∧ Q y = true) ∧ Never P Q (y :: ts)

theorem Never.append {P Q : Tag → Bool} {ts us : List Tag} (h : Never P Q ts) (h' : Never P Q us)
    (hb : ∀ x y, ts.getLast? = some x → us.head? = some y → ¬ (P x = true ∧ Q y = true)) :
    Never P Q (ts ++ us) := by
  match ts, h with
  | [], _ => exact h'
  | [x], _ =>
    match us, h' with
    | [], _ => trivial
    | y :: us, h' => exact ⟨hb x y rfl rfl, h'⟩
  | x :: y :: ts, h => exact ⟨h.1, Never.append h.2 h' fun x' y' hx hy => hb x' y' (by simpa using hx) hy⟩

theorem Never.at {P Q : Tag → Bool} {ts : List Tag} (h : Never P Q ts) (n : Nat) (x y : Tag)
    (hx : ts[n]? = some x) (hy : ts[n + 1]? = some y) : ¬ (P x = true ∧ Q y = true) := by
  induction n generalizing ts with
  | zero =>
    match ts, hx, hy with
    | x :: y :: ts, hx, hy =>
      simp at hx hy
      subst hx hy
      exact h.1
  | succ n ih =>
    match ts, hx, hy with
    | [], hx, _ => simp at hx
    | [_], hx, _ => simp at hx
    | _ :: y :: ts, hx, hy => exact ih h.2 (by simpa using hx) (by simpa using hy)

section
variable {rule : Rule → E} {T : Table} {P Q : Tag → Bool}

theorem der_sound (hT : ∀ n, T.ok rule P Q n = true) {e : E} {ts : List Tag} (h : Der rule e ts) :
    (ts = [] → e.nul T = true) ∧ (∀ x, ts.head? = some x → Q x = true → e.first T Q = true) ∧
    (∀ x, ts.getLast? = some x → P x = true → e.last T P = true) ∧
    (e.safe T P Q = true → Never P Q ts) := by
  induction h with
  | eps => exact ⟨fun _ => rfl, by simp, by simp, fun _ => trivial⟩
  | @tag t =>
    refine ⟨by simp, ?_, ?_, fun _ => trivial⟩
    · simp only [List.head?_cons, Option.some.injEq, E.first]
      rintro x rfl hx
      exact hx
    · simp only [List.getLast?_singleton, Option.some.injEq, E.last]
      rintro x rfl hx
      exact hx
  | @nt n ts h ih =>
    have := hT n
    simp only [Table.ok, Bool.and_eq_true, Bool.or_eq_true, Bool.not_eq_true'] at this
    obtain ⟨⟨⟨h1, h2⟩, h3⟩, h4⟩ := this
    obtain ⟨i1, i2, i3, i4⟩ := ih
    simp only [E.nul, E.first, E.last]
    refine ⟨fun h => ?_, fun x hx hq => ?_, fun x hx hp => ?_, fun _ => i4 h4⟩
    · have := i1 h; simp_all
    · have := i2 x hx hq; simp_all
    · have := i3 x hx hp; simp_all
  | @seq a b ts us ha hb iha ihb =>
    obtain ⟨a1, a2, a3, a4⟩ := iha
    obtain ⟨b1, b2, b3, b4⟩ := ihb
    simp only [E.nul, E.first, E.last, E.safe, Bool.and_eq_true, Bool.or_eq_true, Bool.not_eq_true',
      Bool.and_eq_false_iff]
    refine ⟨fun h => ?_, fun x hx hq => ?_, fun x hx hp => ?_, ?_⟩
    · simp at h
      exact ⟨a1 h.1, b1 h.2⟩
    · cases ts with
      | nil => exact .inr ⟨a1 rfl, b2 x hx hq⟩
      | cons y ts => exact .inl (a2 x hx hq)
    · rcases us.eq_nil_or_concat with rfl | ⟨us, z, rfl⟩
      · exact .inr ⟨b1 rfl, a3 x (by simpa using hx) hp⟩
      · refine .inl (b3 x ?_ hp)
        simp at hx ⊢
        exact hx
    · rintro ⟨⟨s1, s2⟩, s3⟩
      refine (a4 s1).append (b4 s2) fun x y hx hy hh => ?_
      have := a3 x hx hh.1
      have := b2 y hy hh.2
      simp_all
  | left _ ih =>
    obtain ⟨a1, a2, a3, a4⟩ := ih
    simp only [E.nul, E.first, E.last, E.safe, Bool.and_eq_true, Bool.or_eq_true]
    exact ⟨fun h => .inl (a1 h), fun x h h' => .inl (a2 x h h'), fun x h h' => .inl (a3 x h h'), fun h => a4 h.1⟩
  | right _ ih =>
    obtain ⟨a1, a2, a3, a4⟩ := ih
    simp only [E.nul, E.first, E.last, E.safe, Bool.and_eq_true, Bool.or_eq_true]
    exact ⟨fun h => .inr (a1 h), fun x h h' => .inr (a2 x h h'), fun x h h' => .inr (a3 x h h'), fun h => a4 h.2⟩
  | starNil => exact ⟨fun _ => rfl, by simp, by simp, fun _ => trivial⟩
  | @starCons a ts us ha hb iha ihb =>
    obtain ⟨a1, a2, a3, a4⟩ := iha
    obtain ⟨b1, b2, b3, b4⟩ := ihb
    simp only [E.first, E.last, E.safe] at b2 b3 b4 ⊢
    refine ⟨fun _ => rfl, fun x hx hq => ?_, fun x hx hp => ?_, fun h => ?_⟩
    · cases ts with
      | nil => exact b2 x hx hq
      | cons y ts => exact a2 x hx hq
    · rcases us.eq_nil_or_concat with rfl | ⟨us, z, rfl⟩
      · exact a3 x (by simpa using hx) hp
      · refine b3 x ?_ hp
        simp at hx ⊢
        exact hx
    · have h' := h
      simp only [Bool.and_eq_true, Bool.not_eq_true', Bool.and_eq_false_iff] at h'
      refine (a4 h'.1).append (b4 h) fun x y hx hy hh => ?_
      have := a3 x hx hh.1
      have := b2 y hy hh.2
      simp_all

end

/-! ## The rules -/

namespace E

def angle (e : E) (ctx : Nat := 0) : E := tok c!"<" ctx ⬩ e ⬩ tok c!">"
def null (e : E) : E := e ⬩ .opt (tok c!"?")
def attrs : E := .nt .attributes
def ty : E := .nt .type

def integerType : E := .opt (tok c!"unsigned") ⬩ (tok c!"long" ⬩ .opt (tok c!"long") ⫾ tok c!"short")
def floatType : E := .opt (tok c!"unrestricted") ⬩ (tok c!"float" ⫾ tok c!"double")

def builtins : List Str :=
  [c!"boolean", c!"byte", c!"octet", c!"ByteString", c!"DOMString", c!"USVString", c!"object", c!"symbol",
   c!"Error", c!"ArrayBuffer", c!"DataView", c!"Int8Array", c!"Int16Array", c!"Int32Array", c!"Uint8Array",
   c!"Uint16Array", c!"Uint32Array", c!"Uint8ClampedArray", c!"Float32Array", c!"Float64Array",
   c!"ArrayBufferView", c!"BufferSource"]

def union : E := null (tok c!"(" ⬩ sep (tok c!"or") (.nt .unionMember) ⬩ tok c!")")

def returnType : E := tok c!"undefined" ⫾ ty

def recordKey : E := words [c!"ByteString", c!"DOMString", c!"USVString"] ⫾ .nt .nonAny

/-- a type; names of types have context 0 -/
def nonAny : E :=
  tok c!"Promise" ⬩ angle returnType ⫾
  null integerType ⫾
  null floatType ⫾
  null (words builtins) ⫾
  null (tok c!"sequence" ⬩ angle ty) ⫾
  null (tok c!"FrozenArray" ⬩ angle ty) ⫾
  null (tok c!"record" ⬩ angle (recordKey ⬩ tok c!"," ⬩ ty)) ⫾
  null (name 0)

def number : E := .tag .num

def literal : E :=
  words [c!"true", c!"false", c!"null", c!"Infinity", c!"-Infinity", c!"NaN"] ⫾ number

/-- the `{` has context 2 -/
def value : E := literal ⫾ tok c!"[" 2 ⬩ tok c!"]" ⫾ tok c!"{" 2 ⬩ tok c!"}" ⫾ .tag .str

def default : E := .opt (tok c!"=" ⬩ value)

def args : E := tok c!"(" ⬩ sep (tok c!",") (.nt .argument) ⬩ tok c!")"

/-- names of attributes have context 3 -/
def extAttr : E :=
  name 3 ⬩ args ⫾
  name 3 ⬩ tok c!"=" ⬩ name 3 ⬩ args ⫾
  name 3 ⬩ tok c!"=" ⬩ tok c!"(" ⬩ sep (tok c!",") (name 3) ⬩ tok c!")" ⫾
  name 3 ⬩ tok c!"=" ⬩ (name 3 ⫾ .tag .str) ⫾
  name 3 ⬩ tok c!"=" ⬩ tok c!"*" ⫾
  name 3

/-- names after a type have context 1 -/
def attributed : E := attrs ⬩ ty

def argument : E :=
  attrs ⬩ .opt (tok c!"optional") ⬩ attributed ⬩ name 1 ⬩ default ⫾
  attrs ⬩ ty ⬩ tok c!"..." ⬩ name 1

def constType : E := null integerType ⫾ null floatType ⫾ null (words [c!"boolean", c!"byte", c!"octet"]) ⫾ null (name 0)

def const : E := attrs ⬩ tok c!"const" ⬩ constType ⬩ name 1 ⬩ tok c!"=" ⬩ literal ⬩ tok c!";"

def operation : E := returnType ⬩ .opt (name 1) ⬩ args ⬩ tok c!";"

def attributeRest : E := .opt (tok c!"readonly") ⬩ tok c!"attribute" ⬩ attributed ⬩ name 1 ⬩ tok c!";"

def pair : E := attributed ⬩ tok c!"," ⬩ attributed

def interfaceMember : E :=
  const ⫾
  attrs ⬩ .opt (words [c!"stringifier", c!"inherit", c!"static"]) ⬩ attributeRest ⫾
  attrs ⬩ tok c!"constructor" ⬩ args ⬩ tok c!";" ⫾
  attrs ⬩ .opt (words [c!"stringifier", c!"static"]) ⬩
    .opt (words [c!"getter", c!"setter", c!"deleter", c!"legacycaller"]) ⬩ operation ⫾
  attrs ⬩ tok c!"iterable" ⬩ angle (attributed ⫾ pair) 1 ⬩ tok c!";" ⫾
  attrs ⬩ tok c!"async" ⬩ tok c!"iterable" ⬩ angle (attributed ⫾ pair) 1 ⬩ .opt args ⬩ tok c!";" ⫾
  attrs ⬩ .opt (tok c!"readonly") ⬩ tok c!"maplike" ⬩ angle pair 1 ⬩ tok c!";" ⫾
  attrs ⬩ .opt (tok c!"readonly") ⬩ tok c!"setlike" ⬩ angle attributed 1 ⬩ tok c!";" ⫾
  attrs ⬩ tok c!"stringifier" ⬩ tok c!";"

def mixinMember : E :=
  const ⫾
  attrs ⬩ .opt (tok c!"stringifier") ⬩ operation ⫾
  attrs ⬩ .opt (tok c!"stringifier") ⬩ attributeRest ⫾
  attrs ⬩ tok c!"stringifier" ⬩ tok c!";"

def namespaceMember : E := const ⫾ attrs ⬩ operation ⫾ attrs ⬩ attributeRest

def dictionaryMember : E := attrs ⬩ .opt (tok c!"required") ⬩ ty ⬩ name 1 ⬩ default ⬩ tok c!";"

def body (e : E) : E := tok c!"{" ⬩ .star e ⬩ tok c!"}" ⬩ tok c!";"

def inheritance : E := .opt (tok c!":" ⬩ name 4)

/-- The braces of an enum and the semicolon have context 1. -/
def enum : E :=
  attrs ⬩ tok c!"enum" ⬩ name 5 ⬩ tok c!"{" 1 ⬩ .tag .str ⬩ .star (tok c!"," ⬩ .tag .str) ⬩ .opt (tok c!",") ⬩
    tok c!"}" 1 ⬩ tok c!";" 1

/-- The names of definitions have context 2, base interfaces 4, enums 5, mixins 6. -/
def notEnum : E :=
  attrs ⬩ tok c!"callback" ⬩ name 7 ⬩ tok c!"=" ⬩ returnType ⬩ args ⬩ tok c!";" ⫾
  attrs ⬩ .opt (tok c!"callback" ⫾ tok c!"partial") ⬩ tok c!"interface" ⬩ name 2 ⬩ inheritance ⬩ body interfaceMember ⫾
  attrs ⬩ .opt (tok c!"partial") ⬩ tok c!"interface" ⬩ tok c!"mixin" ⬩ name 2 ⬩ body mixinMember ⫾
  attrs ⬩ .opt (tok c!"partial") ⬩ tok c!"namespace" ⬩ name 2 ⬩ body namespaceMember ⫾
  attrs ⬩ .opt (tok c!"partial") ⬩ tok c!"dictionary" ⬩ name 2 ⬩ inheritance ⬩ body dictionaryMember ⫾
  attrs ⬩ tok c!"typedef" ⬩ attributed ⬩ name 1 ⬩ tok c!";" ⫾
  attrs ⬩ name 6 ⬩ tok c!"includes" ⬩ name 6 ⬩ tok c!";" ⫾
  attrs ⬩ name 6 ⬩ tok c!"implements" ⬩ name 6 ⬩ tok c!";"

def definition : E := enum ⫾ notEnum

end E

/-- The rules. -/
def rule : Rule → E
  | .type => E.tok c!"any" ⫾ .nt .nonAny ⫾ E.union
  | .nonAny => E.nonAny
  | .unionMember => E.attrs ⬩ .nt .nonAny ⫾ E.union
  | .attributes => .opt (E.tok c!"[" ⬩ E.sep (E.tok c!",") E.extAttr ⬩ E.tok c!"]")
  | .argument => E.argument

/-! ## Spellings are derived -/

/-- Lexemes and their tags. -/
inductive Tagged : List Tag → List Str → Prop where
  | nil : Tagged [] []
  | cons {t : Tag} {w : Str} {ts : List Tag} {ls : List Str} (h : t.has w) (hs : Tagged ts ls) :
      Tagged (t :: ts) (w :: ls)

theorem Tagged.append {ts us : List Tag} {a b : List Str} (h : Tagged ts a) (h' : Tagged us b) :
    Tagged (ts ++ us) (a ++ b) := by
  induction h with
  | nil => exact h'
  | cons h _ ih => exact .cons h ih

theorem Tagged.at {ts : List Tag} {ls : List Str} (h : Tagged ts ls) (n : Nat) (w : Str) (hw : ls[n]? = some w) :
    ∃ t, ts[n]? = some t ∧ t.has w := by
  induction h generalizing n with
  | nil => simp at hw
  | @cons t w' ts ls h _ ih =>
    cases n with
    | zero => simp at hw; exact ⟨t, rfl, hw ▸ h⟩
    | succ n => exact ih n (by simpa using hw)

def Der' (e : E) (ls : List Str) : Prop := ∃ ts, Der rule e ts ∧ Tagged ts ls

/-- Every spelling in `A` is derived from `e`. -/
def Sub (A : Lang) (e : E) : Prop := ∀ ls, A ls → Der' e ls

namespace Sub

variable {A B : Lang} {a b : E}

theorem eps : Sub Spec.eps .eps := by
  rintro _ rfl
  exact ⟨[], .eps, .nil⟩

theorem tok {w : Str} {c : Nat} : Sub (Spec.tok w) (E.tok w c) := by
  rintro _ rfl
  exact ⟨_, .tag, .cons rfl .nil⟩

theorem tag {t : Tag} (h : ∀ ls, A ls → ∃ w, ls = [w] ∧ t.has w) : Sub A (.tag t) := by
  intro ls hl
  obtain ⟨w, rfl, hw⟩ := h ls hl
  exact ⟨_, .tag, .cons hw .nil⟩

theorem name {i : Str} {c : Nat} : Sub (Spec.name i) (E.name c) := by
  refine tag fun ls h => ?_
  obtain ⟨w, rfl, h⟩ := name_single h
  exact ⟨w, rfl, i, h⟩

theorem typeName {l : List Str} {i : Str} {c : Nat} : Sub (Spec.typeName l i) (E.name c) := by
  rintro ls ⟨h, ⟨rfl, _⟩ | rfl⟩
  · exact name (i := i) _ ⟨h, .inl rfl⟩
  · exact name (i := i) _ ⟨h, .inr rfl⟩

theorem string {v : Str} : Sub (Spec.string v) (.tag .str) := by
  refine tag fun ls h => ?_
  exact ⟨_, h.2, v, h.1, rfl⟩

theorem seq (ha : Sub A a) (hb : Sub B b) : Sub (A ⨾ B) (a ⬩ b) := by
  rintro _ ⟨x, y, rfl, hx, hy⟩
  obtain ⟨ts, h1, h2⟩ := ha x hx
  obtain ⟨us, h3, h4⟩ := hb y hy
  exact ⟨_, .seq h1 h3, h2.append h4⟩

theorem left (h : Sub A a) : Sub A (a ⫾ b) := fun ls hl => by
  obtain ⟨ts, h1, h2⟩ := h ls hl
  exact ⟨ts, .left h1, h2⟩

theorem right (h : Sub A b) : Sub A (a ⫾ b) := fun ls hl => by
  obtain ⟨ts, h1, h2⟩ := h ls hl
  exact ⟨ts, .right h1, h2⟩

theorem nt {n : Rule} (h : Sub A (rule n)) : Sub A (.nt n) := fun ls hl => by
  obtain ⟨ts, h1, h2⟩ := h ls hl
  exact ⟨ts, .nt h1, h2⟩

theorem avoiding {ps : List (List Str)} (h : Sub A a) : Sub (Spec.avoiding ps A) a := fun ls hl => h ls hl.1

theorem skip (h : Sub A b) : Sub A (.opt a ⬩ b) := fun ls hl => by
  obtain ⟨ts, h1, h2⟩ := h ls hl
  exact ⟨[] ++ ts, .seq (.left .eps) h1, h2⟩

theorem skipLast (h : Sub A a) : Sub A (a ⬩ .opt b) := fun ls hl => by
  obtain ⟨ts, h1, h2⟩ := h ls hl
  exact ⟨ts ++ [], .seq h1 (.left .eps), by simpa using h2⟩

theorem some (h : Sub A a) : Sub A (.opt a) := right h

theorem nothing : Sub Spec.eps (.opt a) := left eps

theorem optTok {q : Bool} {w : Str} {c : Nat} : Sub (Spec.optTok q w) (.opt (E.tok w c)) := by
  cases q
  · exact nothing
  · exact some tok

theorem null {q : Bool} (h : Sub A a) : Sub (A ⨾ Spec.optTok q c!"?") (E.null a) := seq h optTok

theorem named {i : Str} (h : Sub A a) : Sub (Spec.named A i) (a ⬩ E.name 1) := by
  rintro _ ⟨x, y, rfl, hx, hy, _⟩
  exact seq h name _ ⟨x, y, rfl, hx, hy⟩

theorem sepStar {s : Lang} {e : E} (hs : Sub s e) : ∀ {B : Lang} {As : List Lang}, (∀ A ∈ B :: As, Sub A a) →
    Sub (Spec.sepBy s (B :: As)) (a ⬩ .star (e ⬩ a))
  | B, [], h => fun ls hl => by
    obtain ⟨ts, h1, h2⟩ := h B (by simp) ls hl
    exact ⟨ts ++ [], .seq h1 .starNil, by simpa using h2⟩
  | B, A :: As, h => by
    rintro _ ⟨x, _, rfl, hx, y, z, rfl, hy, hz⟩
    obtain ⟨ts, h1, h2⟩ := h B (by simp) x hx
    obtain ⟨us, h3, h4⟩ := hs y hy
    obtain ⟨_, h5, h7⟩ := sepStar hs (B := A) (As := As) (fun C hC => h C (List.mem_cons_of_mem _ hC)) z hz
    cases h5 with
    | seq h5 h6 =>
      refine ⟨_, .seq h1 (.starCons (.seq h3 h5) h6), ?_⟩
      have := h2.append (h4.append h7)
      simpa only [List.append_assoc] using this

theorem sep {s : Lang} {e : E} (hs : Sub s e) {As : List Lang} (h : ∀ A ∈ As, Sub A a) :
    Sub (Spec.sepBy s As) (E.sep e a) := by
  cases As with
  | nil => exact nothing
  | cons B As => exact some (sepStar hs h)

theorem star {As : List Lang} (h : ∀ A ∈ As, Sub A a) : Sub (Spec.concat As) (.star a) := by
  induction As with
  | nil =>
    rintro _ rfl
    exact ⟨[], .starNil, .nil⟩
  | cons B As ih =>
    rintro _ ⟨x, y, rfl, hx, hy⟩
    obtain ⟨ts, h1, h2⟩ := h B (by simp) x hx
    obtain ⟨us, h3, h4⟩ := ih (fun C hC => h C (List.mem_cons_of_mem _ hC)) y hy
    exact ⟨_, .starCons h1 h3, h2.append h4⟩

theorem angles {c : Nat} (h : Sub A a) : Sub (Spec.angles A) (E.angle a c) := seq tok (seq h tok)

theorem words {w : Str} : ∀ {ws : List Str}, w ∈ ws → Sub (Spec.tok w) (E.words ws)
  | [], h => nomatch h
  | [x], h => by
    simp at h
    subst h
    exact tok
  | x :: y :: ws, h => by
    rcases List.mem_cons.1 h with rfl | h
    · exact left tok
    · exact right (words h)

end Sub

theorem sub_integerLit (i : IntegerLit) : Sub (integerLit i) E.number := by
  refine Sub.tag fun ls h => ?_
  cases i with
  | dec v => exact ⟨v, h.2, .inl h.1⟩
  | hex v => exact ⟨v, h.2, .inr (.inl h.1)⟩
  | oct v => exact ⟨v, h.2, .inr (.inr (.inl h.1))⟩

theorem sub_floatLit (f : FloatLit) : Sub (floatLit f) E.literal := by
  cases f with
  | value v => exact .right (Sub.tag fun ls h => ⟨v, h.2, .inr (.inr (.inr h.1))⟩)
  | _ => exact .left (.words (by decide))

theorem sub_booleanLit (b : Bool) : Sub (booleanLit b) E.literal := by
  cases b <;> exact .left (.words (by decide))

theorem sub_constValue (v : ConstValue) : Sub (constValue v) E.literal := by
  cases v with
  | boolean b => exact sub_booleanLit b
  | float f => exact sub_floatLit f
  | integer i => exact .right (sub_integerLit i)
  | null => exact .left (.words (by decide))

theorem sub_defaultValue (v : DefaultValue) : Sub (defaultValue v) E.value := by
  cases v with
  | boolean b => exact .left (sub_booleanLit b)
  | emptyArray => exact .right (.left (.seq .tok .tok))
  | emptyDictionary => exact .right (.right (.left (.seq .tok .tok)))
  | float f => exact .left (sub_floatLit f)
  | integer i => exact .left (.right (sub_integerLit i))
  | null => exact .left (.left (.words (by decide)))
  | string v => exact .right (.right (.right .string))

theorem sub_default (d : Option DefaultValue) : Sub (Spec.default d) E.default := by
  cases d with
  | none => exact .nothing
  | some v => exact .some (.seq .tok (sub_defaultValue v))

theorem sub_integerType (t : IntegerType) : Sub (integerType t) E.integerType := by
  cases t with
  | longLong u => exact .seq .optTok (.left (.seq .tok (.some .tok)))
  | long u => exact .seq .optTok (.left (.skipLast .tok))
  | short u => exact .seq .optTok (.right .tok)

theorem sub_floatingPointType (t : FloatingPointType) : Sub (floatingPointType t) E.floatType := by
  cases t with
  | float u => exact .seq .optTok (.left .tok)
  | double u => exact .seq .optTok (.right .tok)

theorem sub_idOrString (x : IdentifierOrString) : Sub (identifierOrString x) (E.name 3 ⫾ .tag .str) := by
  cases x with
  | identifier i => exact .left .name
  | string v => exact .right .string

mutual

theorem sub_type : ∀ t, Sub (type t) E.ty
  | .single t => by simp only [type]; exact .nt (sub_singleType t)
  | .union ms q => by
    simp only [type]
    exact .nt (.right (.right (.null (.seq .tok (.seq (.sep .tok (sub_unionMembers ms)) .tok)))))

theorem sub_singleType : ∀ t, Sub (singleType t) (rule .type)
  | .any => by simp only [singleType]; exact .left .tok
  | .nonAny t => by simp only [singleType]; exact .right (.left (.avoiding (.nt (sub_nonAnyType t))))

theorem sub_nonAnyType : ∀ t, Sub (nonAnyType t) E.nonAny
  | .promise r => by simp only [nonAnyType]; exact .left (.seq .tok (.angles (sub_returnType r)))
  | .integer t q => by simp only [nonAnyType]; exact .right (.left (.null (sub_integerType t)))
  | .floatingPoint t q => by
    simp only [nonAnyType]; exact .right (.right (.left (.null (sub_floatingPointType t))))
  | .builtin b q => by
    simp only [nonAnyType]
    exact .right (.right (.right (.left (.null (.words (by cases b <;> decide))))))
  | .sequence t q => by
    simp only [nonAnyType]
    exact .right (.right (.right (.right (.left (.null (.seq .tok (.angles (sub_type t))))))))
  | .frozenArray t q => by
    simp only [nonAnyType]
    exact .right (.right (.right (.right (.right (.left (.null (.seq .tok (.angles (sub_type t)))))))))
  | .record k v q => by
    simp only [nonAnyType]
    exact .right (.right (.right (.right (.right (.right (.left (.null (.seq .tok (.angles
      (.seq (sub_recordKeyType k) (.seq .tok (sub_type v))))))))))))
  | .identifier i q => by
    simp only [nonAnyType]
    exact .right (.right (.right (.right (.right (.right (.right (.null .typeName)))))))

theorem sub_recordKeyType : ∀ t, Sub (recordKeyType t) E.recordKey
  | .byte => by simp only [recordKeyType]; exact .left (.words (by decide))
  | .dom => by simp only [recordKeyType]; exact .left (.words (by decide))
  | .usv => by simp only [recordKeyType]; exact .left (.words (by decide))
  | .nonAny t => by simp only [recordKeyType]; exact .right (.avoiding (.nt (sub_nonAnyType t)))

theorem sub_unionMember : ∀ t, Sub (unionMember t) (.nt .unionMember)
  | .single as t => by
    simp only [unionMember]
    exact .nt (.left (.seq (sub_attributes as) (.nt (sub_nonAnyType t))))
  | .union ms q => by
    simp only [unionMember]
    exact .nt (.right (.null (.seq .tok (.seq (.sep .tok (sub_unionMembers ms)) .tok))))

theorem sub_unionMembers : ∀ ms, ∀ A ∈ unionMembers ms, Sub A (.nt .unionMember)
  | [] => by simp only [unionMembers]; simp
  | m :: ms => by
    simp only [unionMembers, List.mem_cons]
    rintro A (rfl | h)
    · exact sub_unionMember m
    · exact sub_unionMembers ms A h

theorem sub_returnType : ∀ t, Sub (returnType t) E.returnType
  | .undefined => by simp only [returnType]; exact .left .tok
  | .type t => by simp only [returnType]; exact .right (.avoiding (sub_type t))

theorem sub_extAttr : ∀ t, Sub (extAttr t) E.extAttr
  | .argList i args => by
    simp only [extAttr]
    exact .left (.seq .name (.seq .tok (.seq (.sep .tok (sub_arguments args)) .tok)))
  | .namedArgList l r args => by
    simp only [extAttr]
    exact .right (.left (.seq .name (.seq .tok (.seq .name (.seq .tok (.seq (.sep .tok (sub_arguments args)) .tok))))))
  | .identList i is => by
    simp only [extAttr]
    refine .right (.right (.left (.seq .name (.seq .tok (.seq .tok (.seq (.sep .tok ?_) .tok))))))
    simp only [List.mem_map]
    rintro _ ⟨i, _, rfl⟩
    exact .name
  | .ident l r => by
    simp only [extAttr]
    exact .right (.right (.right (.left (.seq .name (.seq .tok (sub_idOrString r))))))
  | .wildcard l => by
    simp only [extAttr]
    exact .right (.right (.right (.right (.left (.seq .name (.seq .tok .tok))))))
  | .noArgs i => by
    simp only [extAttr]
    exact .right (.right (.right (.right (.right .name))))

theorem sub_extAttrs : ∀ as, ∀ A ∈ extAttrs as, Sub A E.extAttr
  | [] => by simp only [extAttrs]; simp
  | m :: ms => by
    simp only [extAttrs, List.mem_cons]
    rintro A (rfl | h)
    · exact sub_extAttr m
    · exact sub_extAttrs ms A h

theorem sub_attributes : ∀ as, Sub (attributes as) E.attrs
  | none => by simp only [attributes]; exact .nt .nothing
  | some as => by
    simp only [attributes]
    exact .nt (.some (.seq .tok (.seq (.sep .tok (sub_extAttrs as)) .tok)))

theorem sub_argument : ∀ a, Sub (argument a) (.nt .argument)
  | .single as true (.mk as' t) i d => by
    simp only [argument, namedAttributed, if_true]
    have := Sub.seq (sub_attributes as) (.seq (.some (.tok (w := c!"optional") (c := 0)))
      (.seq (.seq (sub_attributes as') (.named (i := i) (sub_type t))) (sub_default d)))
    intro ls h
    obtain ⟨ts, h1, h2⟩ := this ls h
    refine ⟨ts, .nt (.left ?_), h2⟩
    cases h1 with
    | seq h1 h3 =>
      cases h3 with
      | seq h3 h4 =>
        cases h4 with
        | seq h4 h5 =>
          cases h4 with
          | seq h6 h7 =>
            cases h7 with
            | seq h7 h8 =>
              have := Der.seq h1 (.seq h3 (.seq (.seq h6 h7) (.seq h8 h5)))
              simp only [List.append_assoc] at this ⊢
              exact this
  | .single as false (.mk as' t) i d => by
    simp only [argument, namedAttributed, Bool.false_eq_true, if_false]
    rintro ls ⟨a, b, rfl, ha, rfl, ⟨hb, _⟩⟩
    obtain ⟨ts, h1, h2⟩ := sub_attributes as a ha
    obtain ⟨us, h3, h4⟩ := Sub.seq (sub_attributes as') (.named (i := i) (sub_type t)) b hb
    refine ⟨ts ++ us, .nt (.left ?_), h2.append h4⟩
    cases h3 with
    | seq h6 h7 =>
      cases h7 with
      | seq h7 h8 =>
        have := Der.seq h1 (.seq (.left (a := .eps) (b := E.tok c!"optional") .eps) (.seq (.seq h6 h7) (.seq h8
          (.left (a := .eps) (b := E.tok c!"=" ⬩ E.value) .eps))))
        simp only [List.append_assoc, List.nil_append, List.append_nil] at this ⊢
        exact this
  | .variadic as t i => by
    simp only [argument]
    exact .nt (.right (.seq (sub_attributes as) (.seq (sub_type t) (.seq .tok .name))))

theorem sub_arguments : ∀ as, ∀ A ∈ arguments as, Sub A (.nt .argument)
  | [] => by simp only [arguments]; simp
  | m :: ms => by
    simp only [arguments, List.mem_cons]
    rintro A (rfl | h)
    · exact sub_argument m
    · exact sub_arguments ms A h

end

theorem Sub.assoc {A : Lang} {a b c : E} (h : Sub A ((a ⬩ b) ⬩ c)) : Sub A (a ⬩ b ⬩ c) := by
  intro ls hl
  obtain ⟨ts, h1, h2⟩ := h ls hl
  refine ⟨ts, ?_, h2⟩
  cases h1 with
  | seq h1 h3 =>
    cases h1 with
    | seq h1 h4 =>
      rw [List.append_assoc]
      exact .seq h1 (.seq h4 h3)

theorem sub_attributedType (t : AttributedType) : Sub (attributedType t) E.attributed := by
  cases t with
  | mk as t =>
    simp only [attributedType]
    exact .seq (sub_attributes as) (sub_type t)

theorem sub_namedAttributed (t : AttributedType) (i : Str) : Sub (namedAttributed t i) (E.attributed ⬩ E.name 1) := by
  cases t with
  | mk as t =>
    simp only [namedAttributed]
    intro ls h
    obtain ⟨ts, h1, h2⟩ := Sub.seq (sub_attributes as) (.named (i := i) (sub_type t)) ls h
    refine ⟨ts, ?_, h2⟩
    cases h1 with
    | seq h1 h3 =>
      cases h3 with
      | seq h3 h4 =>
        rw [← List.append_assoc]
        exact .seq (.seq h1 h3) h4

theorem sub_argumentList (as : List Argument) : Sub (argumentList as) E.args :=
  .seq .tok (.seq (.sep .tok (sub_arguments as)) .tok)

theorem sub_optArgumentList (as : Option (List Argument)) : Sub (optArgumentList as) (.opt E.args) := by
  cases as with
  | none => exact .nothing
  | some as => exact .some (sub_argumentList as)

theorem sub_constType (t : ConstType) : Sub (constType t) E.constType := by
  cases t with
  | integer t q => exact .left (.null (sub_integerType t))
  | floatingPoint t q => exact .right (.left (.null (sub_floatingPointType t)))
  | identifier i q => exact .right (.right (.right (.null .typeName)))
  | _ => exact .right (.right (.left (.null (.words (by decide)))))

theorem sub_const (m : ConstMember) : Sub (constMember m) E.const :=
  .seq (sub_attributes _) (.seq .tok (.assoc (.seq (.named (sub_constType _)) (.seq .tok (.seq (sub_constValue _) .tok)))))

theorem sub_operation (r : ReturnType) (i : Option Str) (as : List Argument) :
    Sub (returnNamed r i ⨾ argumentList as ⨾ tok c!";") E.operation := by
  refine .assoc (.seq ?_ (.seq (sub_argumentList as) .tok))
  cases i with
  | none => exact .skipLast (sub_returnType r)
  | some i =>
    rintro _ ⟨x, y, rfl, hx, hy, _⟩
    exact Sub.seq (sub_returnType r) (.some .name) _ ⟨x, y, rfl, hx, hy⟩

theorem sub_attribute {r : Bool} {t : AttributedType} {i : Str} :
    Sub (optTok r c!"readonly" ⨾ tok c!"attribute" ⨾ namedAttributed t i ⨾ tok c!";") E.attributeRest :=
  .seq .optTok (.seq .tok (.assoc (.seq (sub_namedAttributed t i) .tok)))

theorem sub_typePair (p : AttributedType × AttributedType) : Sub (typePair p) E.pair :=
  .seq (sub_attributedType _) (.seq .tok (sub_attributedType _))

theorem sub_modified {m : Option StringifierOrStatic} {A : Lang} {e : E} (h : Sub A e) :
    Sub (modified m A) (.opt (E.words [c!"stringifier", c!"static"]) ⬩ e) := by
  rcases m with _ | (_ | _)
  · exact .skip (.avoiding h)
  · exact .seq (.some (.words (by decide))) h
  · exact .seq (.some (.words (by decide))) h

theorem sub_specialised {m : Option Special} {A : Lang} {e : E} (h : Sub A e) :
    Sub (specialised m A) (.opt (E.words [c!"getter", c!"setter", c!"deleter", c!"legacycaller"]) ⬩ e) := by
  rcases m with _ | (_ | _ | _ | _)
  · exact .skip (.avoiding h)
  · exact .seq (.some (.words (by decide))) h
  · exact .seq (.some (.words (by decide))) h
  · exact .seq (.some (.words (by decide))) h
  · exact .seq (.some (.words (by decide))) h

theorem sub_optWord {b : Bool} {w : Str} {A : Lang} {e : E} (h : Sub A e) :
    Sub (optWord b w A) (.opt (E.tok w) ⬩ e) := by
  cases b
  · exact .skip (.avoiding h)
  · exact .seq (.some .tok) h

theorem sub_modifier (m : Option StringifierOrInheritOrStatic) :
    Sub (modifier m) (.opt (E.words [c!"stringifier", c!"inherit", c!"static"])) := by
  rcases m with _ | (_ | _ | _)
  · exact .nothing
  · exact .some (.words (by decide))
  · exact .some (.words (by decide))
  · exact .some (.words (by decide))

theorem sub_interfaceMember (m : InterfaceMember) : Sub (interfaceMember m) E.interfaceMember := by
  match m with
  | .const m => exact .left (sub_const m)
  | .attribute m => exact .right (.left (.seq (sub_attributes _) (.seq (sub_modifier _) sub_attribute)))
  | .constructor m =>
    exact .right (.right (.left (.seq (sub_attributes _) (.seq .tok (.seq (sub_argumentList _) .tok)))))
  | .operation m =>
    exact .right (.right (.right (.left (.seq (sub_attributes _) (.avoiding (sub_modified (sub_specialised
      (sub_operation _ _ _))))))))
  | .iterable (.single as t) =>
    exact .right (.right (.right (.right (.left (.seq (sub_attributes _) (.seq .tok (.seq (.angles
      (.left (sub_attributedType _))) .tok)))))))
  | .iterable (.double as t) =>
    exact .right (.right (.right (.right (.left (.seq (sub_attributes _) (.seq .tok (.seq (.angles
      (.right (sub_typePair _))) .tok)))))))
  | .asyncIterable (.single as t args) =>
    exact .right (.right (.right (.right (.right (.left (.seq (sub_attributes _) (.seq .tok (.seq .tok (.seq (.angles
      (.left (sub_attributedType _))) (.seq (sub_optArgumentList _) .tok)))))))))) 
  | .asyncIterable (.double as t args) =>
    exact .right (.right (.right (.right (.right (.left (.seq (sub_attributes _) (.seq .tok (.seq .tok (.seq (.angles
      (.right (sub_typePair _))) (.seq (sub_optArgumentList _) .tok)))))))))) 
  | .maplike m =>
    exact .right (.right (.right (.right (.right (.right (.left (.seq (sub_attributes _) (.seq .optTok (.seq .tok
      (.seq (.angles (sub_typePair _)) .tok))))))))))
  | .setlike m =>
    exact .right (.right (.right (.right (.right (.right (.right (.left (.seq (sub_attributes _) (.seq .optTok (.seq .tok
      (.seq (.angles (sub_attributedType _)) .tok)))))))))))
  | .stringifier m =>
    exact .right (.right (.right (.right (.right (.right (.right (.right (.seq (sub_attributes _) (.seq .tok .tok)))))))))

theorem sub_mixinMember (m : MixinMember) : Sub (mixinMember m) E.mixinMember := by
  match m with
  | .const m => exact .left (sub_const m)
  | .operation m => exact .right (.left (.seq (sub_attributes _) (sub_optWord (sub_operation _ _ _))))
  | .attribute m => exact .right (.right (.left (.seq (sub_attributes _) (.seq .optTok sub_attribute))))
  | .stringifier m => exact .right (.right (.right (.seq (sub_attributes _) (.seq .tok .tok))))

theorem sub_namespaceMember (m : NamespaceMember) : Sub (namespaceMember m) E.namespaceMember := by
  match m with
  | .const m => exact .left (sub_const m)
  | .operation m => exact .right (.left (.seq (sub_attributes _) (sub_operation _ _ _)))
  | .attribute m => exact .right (.right (.seq (sub_attributes _) (sub_attribute (r := true))))

theorem sub_dictionaryMember (m : DictionaryMember) : Sub (dictionaryMember m) E.dictionaryMember :=
  .seq (sub_attributes _) (sub_optWord (.assoc (.seq (.named (sub_type _)) (.seq (sub_default _) .tok))))

theorem sub_body {α : Type} {L : α → Lang} {e : E} {ms : List α} (h : ∀ m, Sub (L m) e) :
    Sub (body L ms) (E.body e) := by
  simp only [body, braces, seq_assoc]
  refine .seq .tok (.seq (.star ?_) (.seq .tok .tok))
  simp only [List.mem_map]
  rintro _ ⟨m, _, rfl⟩
  exact h m

theorem sub_inheritance (i : Option Str) : Sub (inheritance i) E.inheritance := by
  cases i with
  | none => exact .nothing
  | some i => exact .some (.seq .tok .name)

theorem sub_enumValues (vs : List Str) :
    Sub (enumValues vs) (.tag .str ⬩ .star (E.tok c!"," ⬩ .tag .str) ⬩ .opt (E.tok c!",")) := by
  rintro ls ⟨hv, c, h⟩
  cases vs with
  | nil => exact absurd rfl hv
  | cons v vs =>
    refine Sub.assoc (.seq (.sepStar .tok ?_) .optTok) ls h
    intro A hA
    obtain ⟨v', _, rfl⟩ := List.mem_map.1 (List.map_cons .. ▸ hA)
    exact .string

theorem sub_notEnum (d : Definition) (hd : ∀ as i vs, d ≠ .enum as i vs) : Sub (definition d) E.notEnum := by
  match d, hd with
  | .callback as i r args, hd =>
    exact .left (.seq (sub_attributes _) (.seq .tok (.seq .name (.seq .tok (.seq (sub_returnType r)
      (.seq (sub_argumentList _) .tok))))))
  | .callbackInterface as i inh ms, hd =>
    exact .right (.left (.seq (sub_attributes _) (.seq (.some (.left .tok)) (.seq .tok (.seq .name
      (.seq (sub_inheritance _) (sub_body sub_interfaceMember)))))))
  | .interface as i inh ms, hd =>
    exact .right (.left (.seq (sub_attributes _) (.skip (.seq .tok (.seq .name
      (.seq (sub_inheritance _) (sub_body sub_interfaceMember)))))))
  | .partialInterface as i ms, hd =>
    exact .right (.left (.seq (sub_attributes _) (.seq (.some (.right .tok)) (.seq .tok (.seq .name
      (.skip (sub_body sub_interfaceMember)))))))
  | .interfaceMixin as i ms, hd =>
    exact .right (.right (.left (.seq (sub_attributes _) (.skip (.seq .tok (.seq .tok (.seq .name
      (sub_body sub_mixinMember))))))))
  | .partialInterfaceMixin as i ms, hd =>
    exact .right (.right (.left (.seq (sub_attributes _) (.seq (.some .tok) (.seq .tok (.seq .tok (.seq .name
      (sub_body sub_mixinMember))))))))
  | .namespace as i ms, hd =>
    exact .right (.right (.right (.left (.seq (sub_attributes _) (.skip (.seq .tok (.seq .name
      (sub_body sub_namespaceMember))))))))
  | .partialNamespace as i ms, hd =>
    exact .right (.right (.right (.left (.seq (sub_attributes _) (.seq (.some .tok) (.seq .tok (.seq .name
      (sub_body sub_namespaceMember))))))))
  | .dictionary as i inh ms, hd =>
    exact .right (.right (.right (.right (.left (.seq (sub_attributes _) (.skip (.seq .tok (.seq .name
      (.seq (sub_inheritance _) (sub_body sub_dictionaryMember))))))))))
  | .partialDictionary as i ms, hd =>
    exact .right (.right (.right (.right (.left (.seq (sub_attributes _) (.seq (.some .tok) (.seq .tok (.seq .name
      (.skip (sub_body sub_dictionaryMember))))))))))
  | .enum as i vs, hd => exact absurd rfl (hd as i vs)
  | .typedef as t i, hd =>
    exact (.right (.right (.right (.right (.right (.left (.seq (sub_attributes _) (.seq .tok
      (.assoc (.seq (sub_namedAttributed t i) .tok))))))))))
  | .includesStatement as l r, hd =>
    exact (.right (.right (.right (.right (.right (.right (.left (.seq (sub_attributes _)
      (.seq (.avoiding .name) (.seq .tok (.seq .name .tok))))))))))) 
  | .implements as l r, hd =>
    exact (.right (.right (.right (.right (.right (.right (.right (.seq (sub_attributes _)
      (.seq (.avoiding .name) (.seq .tok (.seq .name .tok)))))))))))

theorem sub_enum (as : Attrs) (i : Str) (vs : List Str) : Sub (definition (.enum as i vs)) E.enum := by
  refine .seq (sub_attributes _) (.seq .tok (.seq .name ?_))
  simp only [braces, seq_assoc]
  refine .seq .tok ?_
  have := Sub.seq (sub_enumValues vs) (.seq (.tok (w := c!"}") (c := 1)) (.tok (w := c!";") (c := 1)))
  intro ls h
  obtain ⟨ts, h1, h2⟩ := this ls h
  refine ⟨ts, ?_, h2⟩
  cases h1 with
  | seq h1 h3 =>
    cases h1 with
    | seq h1 h4 =>
      cases h4 with
      | seq h4 h5 =>
        simp only [List.append_assoc]
        exact .seq h1 (.seq h4 (.seq h5 h3))

theorem sub_definition (d : Definition) : Sub (definition d) E.definition := by
  by_cases h : ∃ as i vs, d = .enum as i vs
  · obtain ⟨as, i, vs, rfl⟩ := h
    exact .left (sub_enum as i vs)
  · exact .right (sub_notEnum d fun as i vs e => h ⟨as, i, vs, e⟩)

/-- All documents. -/
def E.document : E := .star E.definition

theorem sub_definitions (ds : List Definition) : Sub (definitions ds) E.document := by
  refine .star ?_
  simp only [List.mem_map]
  rintro _ ⟨d, _, rfl⟩
  exact sub_definition d

/-- A table in which the values are spelled out. -/
structure Row where
  nul : Bool
  first : Bool
  last : Bool

structure Rows where
  type : Row
  nonAny : Row
  unionMember : Row
  attributes : Row
  argument : Row

def Rows.row (R : Rows) : Rule → Row
  | .type => R.type
  | .nonAny => R.nonAny
  | .unionMember => R.unionMember
  | .attributes => R.attributes
  | .argument => R.argument

def Rows.table (R : Rows) : Table where
  nul n := (R.row n).nul
  first n := (R.row n).first
  last n := (R.row n).last

def Rows.step (P Q : Tag → Bool) (R : Rows) : Rows :=
  let f (n : Rule) : Row := ⟨(rule n).nul R.table, (rule n).first R.table Q, (rule n).last R.table P⟩
  ⟨f .type, f .nonAny, f .unionMember, f .attributes, f .argument⟩

def Rows.empty : Rows :=
  let r : Row := ⟨false, false, false⟩
  ⟨r, r, r, r, r⟩

/-- The least table. -/
def rows (P Q : Tag → Bool) : Rows :=
  ((((Rows.empty.step P Q).step P Q).step P Q).step P Q).step P Q

def allRules : List Rule := [.type, .nonAny, .unionMember, .attributes, .argument]

/-- Nothing derived from `e` has a `P` before a `Q`. -/
def forbiddenIn (e : E) (P Q : Tag → Bool) : Bool :=
  let T := (rows P Q).table
  allRules.all (T.ok rule P Q) && e.safe T P Q

/-- No document has a `P` before a `Q`. -/
def forbidden (P Q : Tag → Bool) : Bool := forbiddenIn E.document P Q

theorem forbidden_sound {e : E} {P Q : Tag → Bool} (h : forbiddenIn e P Q = true) {ts : List Tag} (hd : Der rule e ts)
    (n : Nat) (x y : Tag) (hx : ts[n]? = some x) (hy : ts[n + 1]? = some y) (hP : P x = true) (hQ : Q y = true) :
    False := by
  simp only [forbiddenIn, allRules, List.all_cons, List.all_nil, Bool.and_true, Bool.and_eq_true] at h
  obtain ⟨⟨h1, h2, h3, h4, h5⟩, h6⟩ := h
  have := (der_sound (T := (rows P Q).table) (P := P) (Q := Q)
    (by rintro (_ | _ | _ | _ | _) <;> assumption) hd).2.2.2 h6
  exact this.at n x y hx hy ⟨hP, hQ⟩

/-! ## Lexemes -/


/-- Whether the lexeme could have the tag. -/
def could (x : Str) : Tag → Bool
  | .w t _ => t == x
  | .name _ => match x with | c :: _ => letter c | [] => false
  | .str => match x with | c :: _ => c == '"' | [] => false
  | .num => x != c!"..." && match x with | c :: _ => numberStart c | [] => false

theorem numberStart_of {c : Char} (h : IsDig c ∨ c = '.' ∨ c = '-') : numberStart c = true := by
  unfold numberStart
  rcases h with hc | rfl | rfl
  · unfold IsDig at hc
    simp [hc]
  · rfl
  · rfl

theorem has_could {x : Str} {t : Tag} (h : t.has x) : could x t = true := by
  match t, h with
  | .w t c, h =>
    obtain rfl : x = t := h
    simp [could]
  | .name c, ⟨i, h1, h2⟩ =>
    obtain ⟨c, v, rfl, h3, -⟩ := word_iff.1 h1
    simp at h2
    rcases h2 with rfl | rfl <;> simp [could, letter, h3]
  | .str, ⟨v, h1, h2⟩ =>
    simp at h2
    subst h2
    simp [could]
  | .num, h =>
    obtain ⟨g, c, v, h1, h2, h3⟩ := Number.head h
    obtain ⟨c', v', rfl, h5⟩ := Number.first h
    simp only [could, numberStart_of h5, Bool.and_true, bne_iff_ne, ne_eq]
    intro h6
    rw [h6] at h
    exact number_punct (p := .ellipsis) (e := []) (e' := []) ⟨by decide, by decide⟩ rfl h

/-- The tags of the items of a valid document. -/
theorem document_tags {s : Str} {ds : List Definition} (h : weedleParse s = .ok ds) {ls : List Str}
    (hl : Lexes s ls) : ∃ ts, Der rule E.document ts ∧ Tagged ts ls := by
  rcases document_lexes.1 (document_iff.1 h) with ⟨rfl, rfl⟩ | ⟨-, ls', h1, h2⟩
  · obtain rfl := lexes_unique hl lexes_nil
    exact ⟨[], .starNil, .nil⟩
  · obtain rfl := lexes_unique hl h1
    exact sub_definitions ds _ h2

theorem never_pair {s : Str} {ls : List Str} {x y : Str} (hf : forbidden (could x) (could y) = true)
    (hl : Lexes s ls) (hi : [x, y] <:+: ls) (ds : List Definition) : weedleParse s ≠ .ok ds := by
  intro h
  obtain ⟨ts, h1, h2⟩ := document_tags h hl
  obtain ⟨a, b, rfl⟩ := hi
  obtain ⟨t, h3, h4⟩ := h2.at a.length x (by simp)
  obtain ⟨u, h5, h6⟩ := h2.at (a.length + 1) y (by simp)
  exact forbidden_sound hf h1 a.length t u h3 h5 (has_could h4) (has_could h6)

end Verif
