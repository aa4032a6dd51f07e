import Verif.Proof.AutomatonSync
import Verif.Spec.Names

/-!
# The automaton reads every document

The items that spell definitions are accepted by the automaton of `Proof/Automaton.lean` (`acc_definitions`). A word `z` that is
not a name in the definitions is not read as a name.
-/

namespace Verif.Auto
open Nom Spec

/-- Not a word that is a type. -/
class NotType (z : Str) : Prop where
  ne : ∀ w ∈ c!"any" :: c!"undefined" :: typeWords, w ≠ z

instance : NotType [] := ⟨by decide⟩

/-- None of the names is spelt `z`. -/
def Fr (z : Str) (l : List Str) : Prop := ∀ i ∈ l, ∀ w, w ≠ [] → w = i ∨ w = '_' :: i → w ≠ z

theorem fr_nil {z : Str} : Fr z [] ↔ True := by simp [Fr]

theorem fr_empty {l : List Str} : Fr [] l := fun _ _ _ h _ => h

theorem fr_append {z : Str} {l m : List Str} : Fr z (l ++ m) ↔ Fr z l ∧ Fr z m := by
  constructor
  · exact fun h => ⟨fun i hi => h i (by simp [hi]), fun i hi => h i (by simp [hi])⟩
  · rintro ⟨h1, h2⟩ i hi
    rcases List.mem_append.1 hi with hi | hi
    · exact h1 i hi
    · exact h2 i hi

theorem fr_flatMap {z : Str} {α : Type} {f : α → List Str} {ms : List α} : Fr z (ms.flatMap f) ↔ ∀ m ∈ ms, Fr z (f m) := by
  simp only [Fr, List.mem_flatMap]
  exact ⟨fun h m hm i hi => h i ⟨m, hm, hi⟩, fun h i ⟨m, hm, hi⟩ => h m hm i hi⟩

variable {z : Str}

theorem acc_w {p q : St} {k : Wd} {rest : List Str} (hm : (.w k, q) ∈ next p) (h : Acc z q rest) : Acc z p (k.text :: rest) := .item hm rfl h

theorem acc_group {p q : St} {b : Br} {r : Role} {c rest : List Str} (hm : (.grp b r, q) ∈ next p) (hc : Acc z (start r) c) (h : Acc z q rest) :
    Acc z p (b.opening :: (c ++ b.closing :: rest)) := by
  have := Acc.group hm hc h
  simpa using this

theorem acc_sub {p q : St} {ls : List Str} (h : Acc z q ls) (hn : ∀ x ∈ next q, x ∈ next p) (hf : final q = Bool.true → final p = Bool.true) :
    Acc z p ls := by
  cases h with
  | done h => exact .done (hf h)
  | item hm hw hs => exact .item (hn _ hm) hw hs
  | group hm hc hs => exact .group (hn _ hm) hc hs

/-- Reading a spelling leads from one state to another. -/
def Rd (z : Str) (A : Lang) (p q : St) : Prop := ∀ ls, A ls → ∀ rest, Acc z q rest → Acc z p (ls ++ rest)

theorem Rd.eps {p : St} : Rd z eps p p := by
  rintro ls rfl rest h
  exact h

theorem Rd.seq {A B : Lang} {p m q : St} (hA : Rd z A p m) (hB : Rd z B m q) : Rd z (A ⨾ B) p q := by
  rintro ls ⟨a, b, rfl, ha, hb⟩ rest h
  rw [List.append_assoc]
  exact hA a ha _ (hB b hb _ h)

theorem Rd.tok {p q : St} (k : Wd) (hm : (.w k, q) ∈ next p) : Rd z (tok k.text) p q := by
  rintro ls rfl rest h
  exact acc_w hm h

theorem Rd.opt {p q : St} (k : Wd) (b : Bool) (hm : (.w k, q) ∈ next p) (hs : ∀ rest, Acc z q rest → Acc z p rest) : Rd z (optTok b k.text) p q := by
  cases b with
  | false => rintro ls rfl rest h; exact hs _ h
  | true => exact .tok k hm

theorem has_name {i w : Str} {ex : List Wd} (h : Spec.name i [w]) (hz : Fr z [i]) (hx : ∀ k ∈ ex, w ≠ k.text) :
    (Hd.name ex).has z w := by
  obtain ⟨c, v, rfl, hc, -⟩ := name_chars h
  exact ⟨⟨c, v, rfl, hc⟩, hx, hz i (by simp) _ (by simp) (by simpa using h.2)⟩

theorem Rd.name {p q : St} {i : Str} (hz : Fr z [i]) (hm : (.name [], q) ∈ next p) : Rd z (name i) p q := by
  intro ls hl rest h
  obtain ⟨w, rfl, hw⟩ := name_single hl
  exact .item hm (has_name hw hz (by simp)) h

theorem Rd.group {A : Lang} {p q : St} (b : Br) {r : Role} (hm : (.grp b r, q) ∈ next p) (hA : ∀ ls, A ls → Acc z (start r) ls) :
    Rd z (Spec.tok b.opening ⨾ A ⨾ Spec.tok b.closing) p q := by
  rintro ls ⟨_, _, rfl, rfl, c, _, rfl, hc, rfl⟩ rest h
  have := acc_group hm (hA c hc) h
  simpa using this

theorem Rd.acc {A : Lang} {p q : St} (h : Rd z A p q) (hf : final q = Bool.true) {ls : List Str} (hl : A ls) : Acc z p ls := by
  have := h ls hl [] (.done hf)
  simpa using this

/-- The elements of a list lead back to where they began. -/
theorem Rd.concat {p : St} : ∀ {As : List Lang}, (∀ A ∈ As, Rd z A p p) → Rd z (concat As) p p
  | [], _ => Rd.eps
  | A :: As, h => (h A (by simp)).seq (Rd.concat fun B hB => h B (by simp [hB]))

/-- A list with separators. -/
theorem acc_sepBy {sep : Lang} {p0 pn : St} {es : List St} (hsep : ∀ e ∈ es, Rd z sep e pn) (hfin : ∀ e ∈ es, final e = Bool.true) :
    ∀ {As : List Lang} {p : St}, (∀ A ∈ As, ∀ ls, A ls → ∀ p ∈ [p0, pn], ∃ e ∈ es, ∀ rest, Acc z e rest → Acc z p (ls ++ rest)) →
    p ∈ [p0, pn] → (As = [] → final p = Bool.true) → ∀ ls, sepBy sep As ls → Acc z p ls
  | [], p, _, _, hf, ls, hl => by cases hl; exact .done (hf rfl)
  | [A], p, h, hp, _, ls, hl => by
    obtain ⟨e, he, h1⟩ := h A (by simp) ls hl p hp
    have := h1 [] (.done (hfin e he))
    simpa using this
  | A :: B :: As, p, h, hp, _, ls, hl => by
    obtain ⟨a, x, rfl, ha, s, b, rfl, hs, hb⟩ := hl
    obtain ⟨e, he, h1⟩ := h A (by simp) a ha p hp
    exact h1 _ (hsep e he s hs _ (acc_sepBy hsep hfin (fun A hA => h A (List.mem_cons_of_mem _ hA)) (by simp) (by simp) b hb))

/-! ## Types -/

/-- The points at which a type can end. -/
def TP.isEnd : TP → Bool
  | .d | .e | .ul | .l | .uid | .rid => Bool.true
  | _ => Bool.false

/-- Where a type ends, and what it is. -/
def Ends (ls : List Str) : TP → Prop
  | .d | .e => True
  | .ul => ls = [c!"unsigned", c!"long"]
  | .l => ls = [c!"long"]
  | .uid => ls = [c!"unsigned"]
  | .rid => ls = [c!"unrestricted"]
  | _ => False

theorem Ends.isEnd {ls : List Str} {d : TP} (h : Ends ls d) : d.isEnd = Bool.true := by
  cases d <;> first | rfl | exact h.elim

/-- None of the words comes first. -/
def Not (ex : List Wd) (ls : List Str) : Prop := ∀ k ∈ ex, ¬ [k.text] <+: ls

theorem Not.left {ex : List Wd} {a b : List Str} (h : Not ex (a ++ b)) : Not ex a :=
  fun k hk hp => h k hk (hp.trans (List.prefix_append _ _))

theorem Not.head {ex : List Wd} {w : Str} {ls : List Str} (h : Not ex (w :: ls)) : ∀ k ∈ ex, w ≠ k.text := by
  rintro k hk rfl
  exact h k hk ⟨ls, rfl⟩

theorem Not.nil {ls : List Str} : Not [] ls := by simp [Not]

/-- A type is read from where types are expected. -/
def RdT (z : Str) (A : Lang) : Prop := ∀ ls, A ls → ∀ (ex : List Wd) (k : K) (p : St), Not ex ls → (∀ x ∈ tyStart ex k, x ∈ next p) →
  ∃ d, Ends ls d ∧ ∀ rest, Acc z (.ty d k) rest → Acc z p (ls ++ rest)

/-- The same without a question mark. -/
def RdB (z : Str) (A : Lang) : Prop := ∀ ls, A ls → ∀ (ex : List Wd) (k : K) (p : St), Not ex ls → (∀ x ∈ tyStart ex k, x ∈ next p) →
  ∃ d, d ≠ .e ∧ Ends ls d ∧ ∀ rest, Acc z (.ty d k) rest → Acc z p (ls ++ rest)

theorem RdB.toT {A : Lang} (h : RdB z A) : RdT z A := by
  intro ls hl ex k p hn hp
  obtain ⟨d, -, h1, h2⟩ := h ls hl ex k p hn hp
  exact ⟨d, h1, h2⟩

theorem RdB.null {A : Lang} (h : RdB z A) (q : Bool) : RdT z (A ⨾ optTok q c!"?") := by
  rintro ls ⟨a, b, rfl, ha, hb⟩ ex k p hn hp
  obtain ⟨d, hd, h1, h2⟩ := h a ha ex k p hn.left hp
  cases q with
  | false =>
    cases hb
    exact ⟨d, by simpa using h1, by simpa using h2⟩
  | true =>
    cases hb
    refine ⟨.e, trivial, fun rest hr => ?_⟩
    have : (.w .query, .ty .e k) ∈ next (.ty d k) := by
      cases d <;> first | exact absurd rfl hd | exact h1.elim | simp [next, tyNext]
    have := h2 _ (acc_w this hr)
    simpa [Wd.text] using this

theorem RdT.avoiding {A : Lang} (h : RdT z A) (ps : List (List Str)) : RdT z (avoiding ps A) := fun ls hl => h ls hl.1

/-- A word that is a type. -/
theorem word_type {w : Str} (hw : ∃ c v, w = c :: v ∧ (c.isAlpha = Bool.true ∨ c = '_'))
    (hne : ∀ k ∈ [Wd.long, .short, .float, .double, .unsigned, .unrestricted], w ≠ k.text) (hz : w ≠ z) : RdB z (tok w) := by
  rintro ls rfl ex k p hn hp
  refine ⟨.d, by simp, trivial, fun rest hr => ?_⟩
  refine .item (hp (.name (ex ++ [.long, .short, .float, .double, .unsigned, .unrestricted]), .ty .d k) (by simp [tyStart])) ⟨hw, ?_, hz⟩ hr
  intro k' hk'
  rcases List.mem_append.1 hk' with h | h
  · exact hn.head k' h
  · exact hne k' h

theorem rd_integerType (t : IntegerType) : RdB z (integerType t) := by
  intro ls hl ex k p hn hp
  have hu := hp (.w .unsigned, .ty .u k) (by simp [tyStart])
  have hL := hp (.w .long, .ty .l k) (by simp [tyStart])
  have hS := hp (.w .short, .ty .d k) (by simp [tyStart])
  have h1 : (.w .long, .ty .ul k) ∈ next (.ty .u k) := by simp [next, tyNext]
  have h2 : (.w .short, .ty .d k) ∈ next (.ty .u k) := by simp [next, tyNext]
  have h3 : (.w .long, .ty .d k) ∈ next (.ty .ul k) := by simp [next, tyNext]
  have h4 : (.w .long, .ty .d k) ∈ next (.ty .l k) := by simp [next, tyNext]
  match t, hl with
  | .longLong true, hl =>
    obtain ⟨_, _, rfl, rfl, _, _, rfl, rfl, rfl⟩ := hl
    exact ⟨.d, by simp, trivial, fun rest hr => acc_w hu (acc_w h1 (acc_w h3 hr))⟩
  | .longLong false, hl =>
    obtain ⟨_, _, rfl, rfl, _, _, rfl, rfl, rfl⟩ := hl
    exact ⟨.d, by simp, trivial, fun rest hr => acc_w hL (acc_w h4 hr)⟩
  | .long true, hl =>
    obtain ⟨_, _, rfl, rfl, rfl⟩ := hl
    exact ⟨.ul, by simp, rfl, fun rest hr => acc_w hu (acc_w h1 hr)⟩
  | .long false, hl =>
    obtain ⟨_, _, rfl, rfl, rfl⟩ := hl
    exact ⟨.l, by simp, rfl, fun rest hr => acc_w hL hr⟩
  | .short true, hl =>
    obtain ⟨_, _, rfl, rfl, rfl⟩ := hl
    exact ⟨.d, by simp, trivial, fun rest hr => acc_w hu (acc_w h2 hr)⟩
  | .short false, hl =>
    obtain ⟨_, _, rfl, rfl, rfl⟩ := hl
    exact ⟨.d, by simp, trivial, fun rest hr => acc_w hS hr⟩

theorem rd_floatingPointType (t : FloatingPointType) : RdB z (floatingPointType t) := by
  intro ls hl ex k p hn hp
  have hr := hp (.w .unrestricted, .ty .r k) (by simp [tyStart])
  have hF := hp (.w .float, .ty .d k) (by simp [tyStart])
  have hD := hp (.w .double, .ty .d k) (by simp [tyStart])
  have h1 : (.w .float, .ty .d k) ∈ next (.ty .r k) := by simp [next, tyNext]
  have h2 : (.w .double, .ty .d k) ∈ next (.ty .r k) := by simp [next, tyNext]
  match t, hl with
  | .float true, hl =>
    obtain ⟨_, _, rfl, rfl, rfl⟩ := hl
    exact ⟨.d, by simp, trivial, fun rest h => acc_w hr (acc_w h1 h)⟩
  | .float false, hl =>
    obtain ⟨_, _, rfl, rfl, rfl⟩ := hl
    exact ⟨.d, by simp, trivial, fun rest h => acc_w hF h⟩
  | .double true, hl =>
    obtain ⟨_, _, rfl, rfl, rfl⟩ := hl
    exact ⟨.d, by simp, trivial, fun rest h => acc_w hr (acc_w h2 h)⟩
  | .double false, hl =>
    obtain ⟨_, _, rfl, rfl, rfl⟩ := hl
    exact ⟨.d, by simp, trivial, fun rest h => acc_w hD h⟩

variable [NotType z]

theorem rd_builtin (b : Builtin) : RdB z (tok (builtinWord b)) := by
  apply word_type
  · cases b <;> exact ⟨_, _, rfl, by decide⟩
  · cases b <;> decide
  · exact NotType.ne _ (by cases b <;> decide)

theorem rd_typeName {reserved : List Str} (hr : ∀ k ∈ [Wd.long, .short, .float, .double], k.text ∈ reserved) (i : Str)
    (hz : Fr z [i]) : RdB z (typeName reserved i) := by
  rintro ls ⟨h1, h2⟩
  obtain ⟨c, v, rfl, hc, -⟩ := word_cons h1
  rcases h2 with ⟨rfl, h3⟩ | rfl
  · by_cases e1 : c :: v = c!"unsigned"
    · rw [e1]
      intro ex k p hn hp
      exact ⟨.uid, by simp, rfl, fun rest h => acc_w (hp (.w .unsigned, .ty .uid k) (by simp [tyStart])) h⟩
    · by_cases e2 : c :: v = c!"unrestricted"
      · rw [e2]
        intro ex k p hn hp
        exact ⟨.rid, by simp, rfl, fun rest h => acc_w (hp (.w .unrestricted, .ty .rid k) (by simp [tyStart])) h⟩
      · refine word_type ⟨c, v, rfl, .inl hc⟩ ?_ (hz _ (by simp) _ (by simp) (.inl rfl)) _ rfl
        intro k hk
        simp only [List.mem_cons, List.not_mem_nil, or_false] at hk
        rcases hk with rfl | rfl | rfl | rfl | rfl | rfl
        · exact fun h => h3 (h ▸ hr .long (by simp))
        · exact fun h => h3 (h ▸ hr .short (by simp))
        · exact fun h => h3 (h ▸ hr .float (by simp))
        · exact fun h => h3 (h ▸ hr .double (by simp))
        · exact e1
        · exact e2
  · refine word_type ⟨'_', c :: v, rfl, .inr rfl⟩ ?_ (hz _ (by simp) _ (by simp) (.inr rfl)) _ rfl
    intro k hk
    simp only [List.mem_cons, List.not_mem_nil, or_false] at hk
    rcases hk with rfl | rfl | rfl | rfl | rfl | rfl <;> exact fun h => (Wd.first h.symm).2.1 rfl

/-- A type that begins with a keyword and has a group after it. -/
theorem rd_generic (kw : Wd) (m : TP) (r : Role) {A : Lang} (hs : ∀ ex k, (.w kw, .ty m k) ∈ tyStart ex k)
    (hm : ∀ k, (.grp .angle r, .ty .d k) ∈ next (.ty m k)) (hA : ∀ ls, A ls → Acc z (start r) ls) : RdB z (tok kw.text ⨾ angles A) := by
  intro ls hl ex k p hn hp
  exact ⟨.d, by simp, trivial, fun rest h => (Rd.tok kw (hp _ (hs ex k))).seq (Rd.group .angle (hm k) hA) ls hl rest h⟩

theorem rd_union {A : Lang} (hA : ∀ ls, A ls → Acc z .unS ls) : RdB z (parens A) := by
  intro ls hl ex k p hn hp
  exact ⟨.d, by simp, trivial, fun rest h =>
    Rd.group .round (r := .union) (hp (.grp .round .union, .ty .d k) (by simp [tyStart])) hA ls hl rest h⟩

/-- A type by itself. -/
theorem RdT.acc {A : Lang} (h : RdT z A) {k : K} (hk : kFinal k = Bool.true) {p : St} (hp : ∀ x ∈ tyStart [] k, x ∈ next p) {ls : List Str}
    (hl : A ls) : Acc z p ls := by
  obtain ⟨d, h1, h2⟩ := h ls hl [] k p .nil hp
  have hf : final (.ty d k) = Bool.true := by cases d <;> first | exact h1.elim | exact hk
  have := h2 [] (.done hf)
  simpa using this

/-- After a type. -/
theorem end_next {d : TP} (h : d.isEnd = Bool.true) {k : K} {x : Hd × St} (hx : ∀ ex, x ∈ kNext ex k) : x ∈ next (.ty d k) := by
  cases d <;> first | exact absurd h (by decide) | simp [next, tyNext, hx]

theorem RdT.then {A B : Lang} {k : K} {ex : List Wd} {p q : St} (h : RdT z A) (hp : ∀ x ∈ tyStart ex k, x ∈ next p)
    (hB : ∀ d : TP, d.isEnd = Bool.true → Rd z B (.ty d k) q) {ls : List Str} (hl : (A ⨾ B) ls) (hn : Not ex ls) {rest : List Str} (hr : Acc z q rest) :
    Acc z p (ls ++ rest) := by
  obtain ⟨a, b, rfl, ha, hb⟩ := hl
  obtain ⟨d, h1, h2⟩ := h a ha ex k p hn.left hp
  rw [List.append_assoc]
  exact h2 _ (hB d h1.isEnd b hb _ hr)

/-- A type and a name. -/
theorem RdT.named {A : Lang} (h : RdT z A) {i : Str} (hz : Fr z [i]) {k : K} {ex : List Wd} {p q : St} (hp : ∀ x ∈ tyStart ex k, x ∈ next p)
    (hk : ∀ ex, (.name ex, q) ∈ kNext ex k) {ls : List Str} (hl : named A i ls) (hn : Not ex ls) {rest : List Str} (hr : Acc z q rest) :
    Acc z p (ls ++ rest) := by
  obtain ⟨a, b, rfl, ha, hb, ht⟩ := hl
  obtain ⟨d, h1, h2⟩ := h a ha ex k p hn.left hp
  rw [List.append_assoc]
  apply h2
  obtain ⟨w, rfl, hw⟩ := name_single hb
  have key : ∀ ex, (.name ex, q) ∈ next (.ty d k) → (∀ k ∈ ex, w ≠ k.text) → Acc z (.ty d k) ([w] ++ rest) :=
    fun ex hm hx => .item hm (has_name hw hz hx) hr
  cases d with
  | d => exact key [] (by simp [next, tyNext, hk]) (by simp)
  | e => exact key [] (by simp [next, tyNext, hk]) (by simp)
  | ul =>
    have h1 : a = [c!"unsigned", c!"long"] := h1
    refine key [.long] (by simp [next, tyNext, hk]) ?_
    rintro k hk rfl
    simp at hk; subst hk h1
    exact ht (by decide)
  | l =>
    have h1 : a = [c!"long"] := h1
    refine key [.long] (by simp [next, tyNext, hk]) ?_
    rintro k hk rfl
    simp at hk; subst hk h1
    exact ht (by decide)
  | uid =>
    have h1 : a = [c!"unsigned"] := h1
    refine key [.long, .short] (by simp [next, tyNext, hk]) ?_
    rintro k hk rfl
    simp at hk; subst h1
    rcases hk with rfl | rfl <;> exact ht (by decide)
  | rid =>
    have h1 : a = [c!"unrestricted"] := h1
    refine key [.float, .double] (by simp [next, tyNext, hk]) ?_
    rintro k hk rfl
    simp at hk; subst h1
    rcases hk with rfl | rfl <;> exact ht (by decide)
  | _ => exact h1.elim

/-! ## Literals -/

theorem num_of {w : Str} (h : Number w) : Hd.num.has z w := Number.first h

theorem rd_literal {re : Regex} {v : Str} {p q : St} (hre : ∀ v, re.Matches v → Number v) (hm : (.num, q) ∈ next p) : Rd z (literal re v) p q := by
  rintro ls ⟨h, rfl⟩ rest hr
  exact .item hm (num_of (hre v h)) hr

theorem rd_string {v : Str} {p q : St} (hm : (.str, q) ∈ next p) : Rd z (string v) p q := by
  rintro ls ⟨-, rfl⟩ rest hr
  exact .item hm ⟨_, rfl⟩ hr

theorem rd_integerLit (i : IntegerLit) {p q : St} (hm : (.num, q) ∈ next p) : Rd z (integerLit i) p q := by
  cases i with
  | dec v => exact rd_literal (fun v h => .inl h) hm
  | hex v => exact rd_literal (fun v h => .inr (.inl h)) hm
  | oct v => exact rd_literal (fun v h => .inr (.inr (.inl h))) hm

theorem rd_floatLit (f : FloatLit) {p q : St} (hm : ∀ x ∈ value q, x ∈ next p) : Rd z (floatLit f) p q := by
  cases f with
  | value v => exact rd_literal (fun v h => .inr (.inr (.inr h))) (hm _ (by simp [value]))
  | negInfinity => exact .tok .negInfinity (hm _ (by simp [value]))
  | infinity => exact .tok .infinity (hm _ (by simp [value]))
  | nan => exact .tok .nan (hm _ (by simp [value]))

theorem rd_booleanLit (b : Bool) {p q : St} (hm : ∀ x ∈ value q, x ∈ next p) : Rd z (booleanLit b) p q := by
  cases b with
  | true => exact .tok .tru (hm _ (by simp [value]))
  | false => exact .tok .fls (hm _ (by simp [value]))

theorem rd_constValue (v : ConstValue) {p q : St} (hm : ∀ x ∈ value q, x ∈ next p) : Rd z (constValue v) p q := by
  cases v with
  | boolean b => exact rd_booleanLit b hm
  | float f => exact rd_floatLit f hm
  | integer i => exact rd_integerLit i (hm _ (by simp [value]))
  | null => exact .tok .null (hm _ (by simp [value]))

theorem rd_empty {b : Br} {p q : St} (hm : (.grp b .empty, q) ∈ next p) : Rd z (tok b.opening ⨾ tok b.closing) p q := by
  rintro ls ⟨_, _, rfl, rfl, rfl⟩ rest hr
  exact acc_group hm (.done (q := .fin) rfl) hr

theorem rd_defaultValue (v : DefaultValue) {p q : St} (hm : ∀ x ∈ value' q, x ∈ next p) : Rd z (defaultValue v) p q := by
  have hm' : ∀ x ∈ value q, x ∈ next p := fun x hx => hm x (by simp [value', hx])
  cases v with
  | boolean b => exact rd_booleanLit b hm'
  | float f => exact rd_floatLit f hm'
  | integer i => exact rd_integerLit i (hm' _ (by simp [value]))
  | null => exact .tok .null (hm' _ (by simp [value]))
  | emptyArray => exact rd_empty (b := .square) (hm _ (by simp [value']))
  | emptyDictionary => exact rd_empty (b := .curly) (hm _ (by simp [value']))
  | string v => exact rd_string (hm _ (by simp [value']))

/-! ## Attributes, arguments and types -/

/-- An attribute is read from the beginning of a list or after a comma. -/
def RdE (z : Str) (A : Lang) : Prop := ∀ ls, A ls → ∀ p ∈ [St.eaS, .eaN], ∃ e ∈ [St.ea1, .ea2, .eaE], ∀ rest, Acc z e rest → Acc z p (ls ++ rest)

def RdArg (z : Str) (A : Lang) : Prop := ∀ ls, A ls → ∀ p ∈ [St.argS, .argN], ∃ e ∈ [St.argEnd, .argDef], ∀ rest, Acc z e rest → Acc z p (ls ++ rest)

def RdU (z : Str) (A : Lang) : Prop := ∀ ls, A ls → ∀ p ∈ [St.unS, .atty .union],
  ∃ e ∈ [St.ty .d .union, .ty .e .union, .ty .ul .union, .ty .l .union, .ty .uid .union, .ty .rid .union], ∀ rest, Acc z e rest → Acc z p (ls ++ rest)

theorem RdT.toU {A : Lang} (h : RdT z A) : RdU z A := by
  intro ls hl p hp
  obtain ⟨d, h1, h2⟩ := h ls hl [] .union p .nil (by
    simp only [List.mem_cons, List.not_mem_nil, or_false] at hp
    rcases hp with rfl | rfl <;> exact fun x hx => List.mem_cons_of_mem _ hx)
  exact ⟨.ty d .union, by cases d <;> first | exact h1.elim | simp, h2⟩

theorem rd_eaName {i : Str} (hz : Fr z [i]) {p : St} (hp : p ∈ [St.eaS, .eaN]) : Rd z (Spec.name i) p .ea1 := by
  simp only [List.mem_cons, List.not_mem_nil, or_false] at hp
  rcases hp with rfl | rfl <;> exact .name hz (by simp [next])

/-- An optional list of attributes. -/
def Group (z : Str) (L : Lang) : Prop := ∀ ls, L ls → ls = [] ∨ ∃ c, ls = c!"[" :: (c ++ [c!"]"]) ∧ Acc z .eaS c

theorem Group.rd {L : Lang} (h : Group z L) {p q : St} (hm : (.grp .square .attrs, q) ∈ next p) (hs : ∀ rest, Acc z q rest → Acc z p rest) : Rd z L p q := by
  intro ls hl rest hr
  rcases h ls hl with rfl | ⟨c, rfl, hc⟩
  · exact hs _ hr
  · have := acc_group hm hc hr
    simpa [Br.opening, Br.closing] using this

theorem atty_sub {k : K} {rest : List Str} (h : Acc z (.ty .start k) rest) : Acc z (.atty k) rest :=
  acc_sub (p := .atty k) h (fun _ hx => List.mem_cons_of_mem _ hx) (by simp [final])

theorem rd_atty {L : Lang} (h : Group z L) (k : K) : Rd z L (.atty k) (.ty .start k) := h.rd (by simp [next, attyNext]) fun _ => atty_sub

theorem Rd.arg_var {A : Lang} (h : RdT z A) (i : Str) (hz : Fr z [i]) {p : St} (hp : ∀ x ∈ tyStart [] .var, x ∈ next p) : Rd z (A ⨾ Spec.tok c!"..." ⨾ Spec.name i) p .argEnd := by
  intro ls hl rest hr
  exact h.then hp (fun d hd => (Rd.tok (q := .argVar) .dots (end_next hd (by simp [kNext]))).seq (Rd.name hz (by simp [next]))) hl .nil hr

theorem rd_named {A : Lang} (h : RdT z A) {i : Str} (hz : Fr z [i]) {k : K} {p q : St} (hp : ∀ x ∈ tyStart [] k, x ∈ next p) (hk : ∀ ex, (.name ex, q) ∈ kNext ex k) :
    Rd z (named A i) p q := fun _ hl _ hr => h.named hz hp hk hl .nil hr

theorem rd_default (d : Option DefaultValue) : ∀ ls, default d ls → ∃ e ∈ [St.argEnd, .argDef], ∀ rest, Acc z e rest → Acc z .argDef (ls ++ rest) := by
  intro ls hl
  cases d with
  | none => cases hl; exact ⟨.argDef, by simp, fun rest hr => hr⟩
  | some v =>
    exact ⟨.argEnd, by simp, fun rest hr => (Rd.tok (q := .argVal) .eq (by simp [next])).seq (rd_defaultValue v (q := .argEnd) (fun x hx => hx)) ls hl rest hr⟩

theorem arg_nexts {p : St} (hp : p ∈ [St.argS, .argN, .arg1]) : ∀ x ∈ argNext, x ∈ next p := by
  simp only [List.mem_cons, List.not_mem_nil, or_false] at hp
  intro x hx
  rcases hp with rfl | rfl | rfl <;> exact List.mem_cons_of_mem _ hx

theorem arg_start {p : St} (hp : p ∈ [St.argS, .argN, .arg1]) : ∀ x ∈ tyStart [.optional] .arg, x ∈ next p :=
  fun x hx => arg_nexts hp x (by simp [argNext, hx])

theorem var_start {p : St} (hp : p ∈ [St.argS, .argN, .arg1]) : ∀ x ∈ tyStart [] .var, x ∈ next p :=
  fun x hx => arg_nexts hp x (by simp [argNext, hx])

/-- The attributes of an argument: they lead to the place after them, or are absent. -/
theorem arg_attributes {L : Lang} (h : Group z L) {p : St} (hp : p ∈ [St.argS, .argN]) {ls : List Str} (hl : L ls) :
    (ls = [] ∧ p ∈ [St.argS, .argN, .arg1]) ∨ ∀ rest, Acc z .arg1 rest → Acc z p (ls ++ rest) := by
  simp only [List.mem_cons, List.not_mem_nil, or_false] at hp
  rcases h ls hl with rfl | ⟨c, rfl, hc⟩
  · exact .inl ⟨rfl, by rcases hp with rfl | rfl <;> simp⟩
  · refine .inr fun rest hr => ?_
    have : (.grp .square .attrs, .arg1) ∈ next p := by rcases hp with rfl | rfl <;> simp [next]
    have := acc_group this hc hr
    simpa [Br.opening, Br.closing] using this

theorem acc_unionMembers {ms : List UnionMember} (h : ∀ A ∈ unionMembers ms, RdU z A) :
    ∀ ls, sepBy (tok c!"or") (unionMembers ms) ls → Acc z .unS ls := by
  refine acc_sepBy (p0 := .unS) (pn := .atty .union) (fun e he => Rd.tok .or ?_) ?_ h (by simp) (fun _ => rfl)
  · simp only [List.mem_cons, List.not_mem_nil, or_false] at he
    rcases he with rfl | rfl | rfl | rfl | rfl | rfl <;> simp [next, tyNext, kNext]
  · decide

theorem acc_arguments {as : List Argument} (h : ∀ A ∈ arguments as, RdArg z A) : ∀ ls, sepBy comma (arguments as) ls → Acc z .argS ls := by
  refine acc_sepBy (p0 := .argS) (pn := .argN) (es := [.argEnd, .argDef]) (fun e he => Rd.tok .comma ?_) (by decide) h
    (by simp) (fun _ => rfl)
  simp only [List.mem_cons, List.not_mem_nil, or_false] at he
  rcases he with rfl | rfl <;> simp [next]

mutual

theorem rd_type : ∀ t, Fr z (namesType t) → RdT z (type t)
  | .single t, hz => by simp only [namesType, fr_append, fr_nil] at hz; simp only [type]; exact rd_singleType t hz
  | .union ms q, hz => by
    simp only [namesType, fr_append, fr_nil] at hz
    simp only [type]
    exact (rd_union (acc_unionMembers (rd_unionMembers ms hz))).null q

theorem rd_singleType : ∀ t, Fr z (namesSingleType t) → RdT z (singleType t)
  | .any, hz => by simp only [namesSingleType, fr_append, fr_nil] at hz; simp only [singleType]; exact (word_type ⟨_, _, rfl, by decide⟩ (by decide) (NotType.ne _ (by decide))).toT
  | .nonAny t, hz => by simp only [namesSingleType, fr_append, fr_nil] at hz; simp only [singleType]; exact .avoiding (rd_nonAnyType t hz) _

theorem rd_nonAnyType : ∀ t, Fr z (namesNonAnyType t) → RdT z (nonAnyType t)
  | .promise r, hz => by
    simp only [namesNonAnyType, fr_append, fr_nil] at hz
    simp only [nonAnyType]
    exact (rd_generic .promise .gen .one (by simp [tyStart]) (by simp [next, tyNext])
      fun ls hl => (rd_returnType r hz).acc (k := .one) (p := .ty .start .one) rfl (fun x hx => hx) hl).toT
  | .integer t q, hz => by simp only [namesNonAnyType, fr_append, fr_nil] at hz; simp only [nonAnyType]; exact (rd_integerType t).null q
  | .floatingPoint t q, hz => by simp only [namesNonAnyType, fr_append, fr_nil] at hz; simp only [nonAnyType]; exact (rd_floatingPointType t).null q
  | .builtin t q, hz => by simp only [namesNonAnyType, fr_append, fr_nil] at hz; simp only [nonAnyType]; exact (rd_builtin t).null q
  | .sequence t q, hz => by
    simp only [namesNonAnyType, fr_append, fr_nil] at hz
    simp only [nonAnyType]
    exact (rd_generic .sequence .gen .one (by simp [tyStart]) (by simp [next, tyNext])
      fun ls hl => (rd_type t hz).acc (k := .one) (p := .ty .start .one) rfl (fun x hx => hx) hl).null q
  | .frozenArray t q, hz => by
    simp only [namesNonAnyType, fr_append, fr_nil] at hz
    simp only [nonAnyType]
    exact (rd_generic .frozenArray .gen .one (by simp [tyStart]) (by simp [next, tyNext])
      fun ls hl => (rd_type t hz).acc (k := .one) (p := .ty .start .one) rfl (fun x hx => hx) hl).null q
  | .record k v q, hz => by
    simp only [namesNonAnyType, fr_append, fr_nil] at hz
    simp only [nonAnyType]
    refine (rd_generic .record .recd .recd (by simp [tyStart]) (by simp [next, tyNext]) fun ls hl => ?_).null q
    obtain ⟨a, b, rfl, ha, c, t, rfl, rfl, ht⟩ := hl
    obtain ⟨d, h1, h2⟩ := rd_recordKeyType k hz.1 a ha [] .recKey (.ty .start .recKey) .nil (fun x hx => hx)
    refine h2 _ (acc_w (k := .comma) (q := .ty .start .one) (end_next h1.isEnd (by simp [kNext])) ?_)
    exact (rd_type v hz.2).acc (k := .one) (p := .ty .start .one) rfl (fun x hx => hx) ht
  | .identifier i q, hz => by
    simp only [namesNonAnyType, fr_append, fr_nil] at hz
    simp only [nonAnyType]; exact (rd_typeName (by decide) i hz).null q

theorem rd_recordKeyType : ∀ t, Fr z (namesRecordKeyType t) → RdT z (recordKeyType t)
  | .byte, hz => by simp only [namesRecordKeyType, fr_append, fr_nil] at hz; simp only [recordKeyType]; exact (word_type ⟨_, _, rfl, by decide⟩ (by decide) (NotType.ne _ (by decide))).toT
  | .dom, hz => by simp only [namesRecordKeyType, fr_append, fr_nil] at hz; simp only [recordKeyType]; exact (word_type ⟨_, _, rfl, by decide⟩ (by decide) (NotType.ne _ (by decide))).toT
  | .usv, hz => by simp only [namesRecordKeyType, fr_append, fr_nil] at hz; simp only [recordKeyType]; exact (word_type ⟨_, _, rfl, by decide⟩ (by decide) (NotType.ne _ (by decide))).toT
  | .nonAny t, hz => by
    simp only [namesRecordKeyType, fr_append, fr_nil] at hz
    simp only [recordKeyType]; exact .avoiding (rd_nonAnyType t hz) _

theorem rd_unionMember : ∀ t, Fr z (namesUnionMember t) → RdU z (unionMember t)
  | .single as t, hz => by
    simp only [namesUnionMember, fr_append, fr_nil] at hz
    simp only [unionMember]
    rintro ls ⟨a, b, rfl, ha, hb⟩ p hp
    have hp' : next p = attyNext .union := by
      simp only [List.mem_cons, List.not_mem_nil, or_false] at hp
      rcases hp with rfl | rfl <;> rfl
    obtain ⟨d, h1, h2⟩ := rd_nonAnyType t hz.2 b hb [] .union (.ty .start .union) .nil (fun x hx => hx)
    refine ⟨.ty d .union, by cases d <;> first | exact h1.elim | simp, fun rest hr => ?_⟩
    rw [List.append_assoc]
    refine (grp_attributes as hz.1).rd (p := p) (q := .ty .start .union) (by simp [hp', attyNext]) (fun rest h => ?_) a ha _ (h2 _ hr)
    exact acc_sub h (by rw [hp']; exact fun x hx => List.mem_cons_of_mem _ hx) (by simp [final])
  | .union ms q, hz => by
    simp only [namesUnionMember, fr_append, fr_nil] at hz
    simp only [unionMember]
    exact ((rd_union (acc_unionMembers (rd_unionMembers ms hz))).null q).toU

theorem rd_unionMembers : ∀ ms, Fr z (namesUnionMembers ms) → ∀ A ∈ unionMembers ms, RdU z A
  | [], hz => by simp only [namesUnionMembers, fr_append, fr_nil] at hz; simp [unionMembers]
  | m :: ms, hz => by
    simp only [namesUnionMembers, fr_append, fr_nil] at hz
    simp only [unionMembers, List.mem_cons, forall_eq_or_imp]
    exact ⟨rd_unionMember m hz.1, rd_unionMembers ms hz.2⟩

theorem rd_returnType : ∀ t, Fr z (namesReturnType t) → RdT z (returnType t)
  | .undefined, hz => by simp only [namesReturnType, fr_append, fr_nil] at hz; simp only [returnType]; exact (word_type ⟨_, _, rfl, by decide⟩ (by decide) (NotType.ne _ (by decide))).toT
  | .type t, hz => by simp only [namesReturnType, fr_append, fr_nil] at hz; simp only [returnType]; exact .avoiding (rd_type t hz) _

theorem rd_extAttr : ∀ t, Fr z (namesExtAttr t) → RdE z (extAttr t)
  | .argList i args, hz => by
    simp only [namesExtAttr, fr_append, fr_nil] at hz
    simp only [extAttr]
    intro ls hl p hp
    exact ⟨.eaE, by simp, fun rest hr => (rd_eaName hz.1 hp).seq (Rd.group .round (r := .args) (by simp [next]) (acc_arguments (rd_arguments args hz.2))) ls hl rest hr⟩
  | .namedArgList l r args, hz => by
    simp only [namesExtAttr, fr_append, fr_nil] at hz
    simp only [extAttr]
    intro ls hl p hp
    exact ⟨.eaE, by simp, fun rest hr => (rd_eaName hz.1.1 hp).seq ((Rd.tok (q := .eaEq) .eq (by simp [next])).seq ((Rd.name hz.1.2 (q := .ea2) (by simp [next])).seq
      (Rd.group .round (r := .args) (by simp [next]) (acc_arguments (rd_arguments args hz.2))))) ls hl rest hr⟩
  | .identList i is, hz => by
    simp only [namesExtAttr, fr_append, fr_nil] at hz
    simp only [extAttr]
    intro ls hl p hp
    refine ⟨.eaE, by simp, fun rest hr => (rd_eaName hz.1 hp).seq ((Rd.tok (q := .eaEq) .eq (by simp [next])).seq
      (Rd.group .round (r := .idents) (by simp [next]) ?_)) ls hl rest hr⟩
    refine acc_sepBy (p0 := .idS) (pn := .idN) (es := [.idE]) (fun e he => ?_) (by decide) ?_ (by simp [start]) (fun _ => rfl)
    · simp at he; subst he; exact Rd.tok .comma (by simp [next])
    · intro A hA ls hl p hp
      obtain ⟨i, hi, rfl⟩ := List.mem_map.1 hA
      refine ⟨.idE, by simp, fun rest hr => Rd.name (i := i) (fun j hj => hz.2 j (by simp at hj; exact hj ▸ hi)) ?_ ls hl rest hr⟩
      simp only [List.mem_cons, List.not_mem_nil, or_false] at hp
      rcases hp with rfl | rfl <;> simp [next]
  | .ident l r, hz => by
    simp only [namesExtAttr, fr_append, fr_nil] at hz
    simp only [extAttr]
    intro ls hl p hp
    cases r with
    | identifier i =>
      exact ⟨.ea2, by simp, fun rest hr => (rd_eaName hz.1 hp).seq ((Rd.tok (q := .eaEq) .eq (by simp [next])).seq
        (Rd.name hz.2 (q := .ea2) (by simp [next]))) ls hl rest hr⟩
    | string v =>
      exact ⟨.eaE, by simp, fun rest hr => (rd_eaName hz.1 hp).seq ((Rd.tok (q := .eaEq) .eq (by simp [next])).seq
        (rd_string (q := .eaE) (by simp [next]))) ls hl rest hr⟩
  | .wildcard l, hz => by
    simp only [namesExtAttr, fr_append, fr_nil] at hz
    simp only [extAttr]
    intro ls hl p hp
    exact ⟨.eaE, by simp, fun rest hr => (rd_eaName hz hp).seq ((Rd.tok (q := .eaEq) .eq (by simp [next])).seq
      (Rd.tok (q := .eaE) .star (by simp [next]))) ls hl rest hr⟩
  | .noArgs i, hz => by
    simp only [namesExtAttr, fr_append, fr_nil] at hz
    simp only [extAttr]
    intro ls hl p hp
    exact ⟨.ea1, by simp, fun rest hr => rd_eaName hz hp ls hl rest hr⟩

theorem rd_extAttrs : ∀ as, Fr z (namesExtAttrs as) → ∀ A ∈ extAttrs as, RdE z A
  | [], hz => by simp only [namesExtAttrs, fr_append, fr_nil] at hz; simp [extAttrs]
  | m :: ms, hz => by
    simp only [namesExtAttrs, fr_append, fr_nil] at hz
    simp only [extAttrs, List.mem_cons, forall_eq_or_imp]
    exact ⟨rd_extAttr m hz.1, rd_extAttrs ms hz.2⟩

theorem grp_attributes : ∀ as, Fr z (namesAttributes as) → Group z (attributes as)
  | none, hz => by
    simp only [namesAttributes, fr_append, fr_nil] at hz
    simp only [attributes]
    rintro ls rfl
    exact .inl rfl
  | some as, hz => by
    simp only [namesAttributes, fr_append, fr_nil] at hz
    simp only [attributes]
    rintro ls ⟨_, _, rfl, rfl, c, _, rfl, hc, rfl⟩
    refine .inr ⟨c, by simp, ?_⟩
    refine acc_sepBy (p0 := .eaS) (pn := .eaN) (es := [.ea1, .ea2, .eaE]) (fun e he => Rd.tok .comma ?_) (by decide) (rd_extAttrs as hz)
      (by simp) (fun _ => rfl) c hc
    simp only [List.mem_cons, List.not_mem_nil, or_false] at he
    rcases he with rfl | rfl | rfl <;> simp [next]

theorem rd_namedAttributed : ∀ t i k q, Fr z (namesAttributedType t) → Fr z [i] → (∀ ex, (.name ex, q) ∈ kNext ex k) → Rd z (namedAttributed t i) (.atty k) q
  | .mk as t, i, k, q, hz, hz', hk => by
    simp only [namesAttributedType, fr_append] at hz
    simp only [namedAttributed]
    exact (rd_atty (grp_attributes as hz.1) k).seq (rd_named (rd_type t hz.2) hz' (p := .ty .start k) (fun x hx => hx) hk)

theorem rd_argument : ∀ a, Fr z (namesArgument a) → RdArg z (argument a)
  | .single as true t i d, hz => by
    simp only [namesArgument, fr_append, fr_nil] at hz
    simp only [argument, if_true]
    rintro ls ⟨a, b, rfl, ha, b1, b2, rfl, rfl, b3, b4, rfl, hb3, hb4⟩ p hp
    obtain ⟨e, he, h⟩ := rd_default (z := z) d b4 hb4
    have key : ∀ p ∈ [St.argS, .argN, .arg1], ∀ rest, Acc z e rest → Acc z p ([c!"optional"] ++ (b3 ++ b4) ++ rest) := by
      intro p hp rest hr
      have := rd_namedAttributed t i .argOpt .argDef hz.1.2 hz.2 (by simp [kNext]) b3 hb3 _ (h _ hr)
      have := acc_w (k := .optional) (arg_nexts hp _ (by simp [argNext])) this
      simpa [Wd.text] using this
    refine ⟨e, he, fun rest hr => ?_⟩
    rcases arg_attributes (grp_attributes as hz.1.1) hp ha with ⟨rfl, hp'⟩ | h'
    · exact key p hp' rest hr
    · have := h' _ (key .arg1 (by simp) rest hr)
      simpa using this
  | .single as false (.mk as' t) i d, hz => by
    simp only [namesArgument, namesAttributedType, fr_append, fr_nil] at hz
    simp only [argument, Bool.false_eq_true, if_false, namedAttributed]
    rintro ls ⟨a, b, rfl, ha, -, ⟨b1, b2, rfl, hb1, hb2⟩, hav⟩ p hp
    refine ⟨.argEnd, by simp, fun rest hr => ?_⟩
    have hk : ∀ ex, (.name ex, .argEnd) ∈ kNext ex .arg := by simp [kNext]
    have direct : b1 = [] → ∀ p ∈ [St.argS, .argN, .arg1], Acc z p (b2 ++ rest) := by
      rintro rfl p hp
      refine (rd_type t hz.1.2.2).named hz.2 (arg_start hp) hk hb2 ?_ hr
      intro k hk hpre
      simp at hk; subst hk
      refine hav [c!"optional"] ?_ (by simpa [Wd.text] using hpre)
      split <;> simp
    match as, ha with
    | none, ha =>
      simp only [attributes] at ha
      cases ha
      have hb : b1 = [] := by
        rcases grp_attributes as' hz.1.2.1 b1 hb1 with h | ⟨c, rfl, -⟩
        · exact h
        · exact absurd ⟨c ++ [c!"]"] ++ b2, by simp⟩ (hav [c!"["] (by simp))
      subst hb
      exact direct rfl p (by simp at hp ⊢; rcases hp with h | h <;> simp [h])
    | some as, ha =>
      have step : Acc z .arg1 (b1 ++ (b2 ++ rest)) := by
        rcases grp_attributes as' hz.1.2.1 b1 hb1 with rfl | ⟨c, rfl, hc⟩
        · exact direct rfl .arg1 (by simp)
        · have : Acc z (.ty .start .arg) (b2 ++ rest) := (rd_type t hz.1.2.2).named hz.2 (p := .ty .start .arg) (ex := []) (fun x hx => hx) hk hb2 .nil hr
          have := acc_group (p := .arg1) (b := .square) (r := .attrs) (by simp [next]) hc this
          simpa [Br.opening, Br.closing] using this
      rcases arg_attributes (grp_attributes (some as) hz.1.1) hp ha with ⟨rfl, -⟩ | h
      · simp only [attributes] at ha
        obtain ⟨_, _, h, rfl, -⟩ := ha
        simp at h
      · have := h _ step
        simpa using this
  | .variadic as t i, hz => by
    simp only [namesArgument, fr_append, fr_nil] at hz
    simp only [argument]
    rintro ls ⟨a, b, rfl, ha, hb⟩ p hp
    refine ⟨.argEnd, by simp, fun rest hr => ?_⟩
    rcases arg_attributes (grp_attributes as hz.1.1) hp ha with ⟨rfl, hp'⟩ | h
    · exact Rd.arg_var (rd_type t hz.1.2) i hz.2 (var_start hp') b hb rest hr
    · have := h _ (Rd.arg_var (rd_type t hz.1.2) i hz.2 (var_start (p := .arg1) (by simp)) b hb rest hr)
      simpa using this

theorem rd_arguments : ∀ as, Fr z (namesArguments as) → ∀ A ∈ arguments as, RdArg z A
  | [], hz => by simp only [namesArguments, fr_append, fr_nil] at hz; simp [arguments]
  | m :: ms, hz => by
    simp only [namesArguments, fr_append, fr_nil] at hz
    simp only [arguments, List.mem_cons, forall_eq_or_imp]
    exact ⟨rd_argument m hz.1, rd_arguments ms hz.2⟩

end

/-! ## Members -/

theorem rd_argumentList (as : List Argument) (hz : Fr z (namesArguments as)) {p q : St} (hm : (.grp .round .args, q) ∈ next p) : Rd z (argumentList as) p q :=
  Rd.group .round hm (acc_arguments (rd_arguments as hz))

theorem rd_constType (t : ConstType) (hz : Fr z (namesConstType t)) : RdT z (constType t) := by
  have w : ∀ w : Str, (∃ c v, w = c :: v ∧ (c.isAlpha = Bool.true ∨ c = '_')) →
    (∀ k ∈ [Wd.long, .short, .float, .double, .unsigned, .unrestricted], w ≠ k.text) → w ≠ z → ∀ q, RdT z (tok w ⨾ optTok q c!"?") :=
    fun w h1 h2 h3 q => (word_type h1 h2 h3).null q
  cases t with
  | integer t q => exact (rd_integerType t).null q
  | floatingPoint t q => exact (rd_floatingPointType t).null q
  | boolean q => exact w _ ⟨_, _, rfl, by decide⟩ (by decide) (NotType.ne _ (by decide)) q
  | byte q => exact w _ ⟨_, _, rfl, by decide⟩ (by decide) (NotType.ne _ (by decide)) q
  | octet q => exact w _ ⟨_, _, rfl, by decide⟩ (by decide) (NotType.ne _ (by decide)) q
  | identifier i q => exact (rd_typeName (by decide) i hz).null q

/-- The attributes of a member. -/
theorem rd_memAttributes (as : Attrs) (hz : Fr z (namesAttributes as)) (b : Body) : Rd z (attributes as) (.mem b) (.mem1 b) :=
  (grp_attributes as hz).rd (by simp [next]) fun _ h => acc_sub (p := .mem b) h (fun _ hx => List.mem_cons_of_mem _ hx) (by simp [final])

theorem mem1_const (b : Body) : (.w .const, .ty .start (.const b)) ∈ next (.mem1 b) := by cases b <;> simp [next, mem1Next]

theorem rd_semi (b : Body) : Rd z (tok c!";") (.semi b) (.mem b) := .tok .semi (by simp [next])

theorem rd_constMember (m : ConstMember) (hz : Fr z (namesConst m)) (b : Body) : Rd z (constMember m) (.mem b) (.mem b) := by
  simp only [namesConst, fr_append] at hz
  exact (rd_memAttributes m.attributes hz.1.1 b).seq ((Rd.tok .const (mem1_const b)).seq
    ((rd_named (rd_constType _ hz.1.2) hz.2 (p := .ty .start (.const b)) (q := .constEq b) (fun _ hx => hx) (by simp [kNext])).seq
      ((Rd.tok (q := .constVal b) .eq (by simp [next])).seq ((rd_constValue _ (p := .constVal b) (q := .semi b) (fun _ hx => hx)).seq (rd_semi b)))))

theorem rd_attrRest (t : AttributedType) (i : Str) (hz : Fr z (namesAttributedType t)) (hz' : Fr z [i]) (b : Body) {p : St} (h : (.w .attr_, .atty (.attr b)) ∈ next p) :
    Rd z (tok c!"attribute" ⨾ namedAttributed t i ⨾ tok c!";") p (.mem b) :=
  (Rd.tok .attr_ h).seq ((rd_namedAttributed t i (.attr b) (.semi b) hz hz' (by simp [kNext])).seq (rd_semi b))

/-- `readonly`, if given, and the rest of an attribute. -/
theorem rd_roAttr (ro : Bool) (t : AttributedType) (i : Str) (hz : Fr z (namesAttributedType t)) (hz' : Fr z [i]) (b : Body) {p m : St} (h : (.w .attr_, .atty (.attr b)) ∈ next p)
    (hr : (.w .readonly, m) ∈ next p) (hm : (.w .attr_, .atty (.attr b)) ∈ next m) :
    Rd z (optTok ro c!"readonly" ⨾ tok c!"attribute" ⨾ namedAttributed t i ⨾ tok c!";") p (.mem b) := by
  cases ro with
  | false =>
    rintro ls ⟨_, x, rfl, rfl, hx⟩ rest hr
    exact rd_attrRest t i hz hz' b h x hx rest hr
  | true => exact (Rd.tok .readonly hr).seq (rd_attrRest t i hz hz' b hm)

theorem rd_attributeInterfaceMember (m : AttributeInterfaceMember) (hz : Fr z (namesAttribute m.attributes m.type_ m.identifier)) :
    Rd z (attributeInterfaceMember m) (.mem .iface) (.mem .iface) := by
  simp only [namesAttribute, fr_append] at hz
  refine (rd_memAttributes _ hz.1.1 _).seq ?_
  have key : ∀ p, (∀ x ∈ roNext .iface, x ∈ next p) →
      Rd z (optTok m.readonly c!"readonly" ⨾ tok c!"attribute" ⨾ namedAttributed m.type_ m.identifier ⨾ tok c!";") p (.mem .iface) :=
    fun p hp => rd_roAttr _ _ _ hz.1.2 hz.2 .iface (m := .roA .iface) (hp _ (by simp [roNext])) (hp _ (by simp [roNext])) (by simp [next])
  match m.modifier with
  | none =>
    rintro ls ⟨_, x, rfl, rfl, hx⟩ rest hr
    exact rd_roAttr _ _ _ hz.1.2 hz.2 .iface (p := .mem1 .iface) (m := .ro) (by simp [next, mem1Next]) (by simp [next, mem1Next]) (by simp [next]) x hx rest hr
  | some .stringifier =>
    exact (Rd.tok (q := .strf) .stringifier (by simp [next, mem1Next])).seq (key _ (fun x hx => by simp [next, hx]))
  | some .inherit => exact (Rd.tok (q := .inh) .inherit (by simp [next, mem1Next])).seq (key _ (fun x hx => hx))
  | some .static => exact (Rd.tok (q := .stat) .static (by simp [next, mem1Next])).seq (key _ (fun x hx => by simp [next, hx]))

theorem rd_constructorInterfaceMember (m : ConstructorInterfaceMember) (hz : Fr z (namesAttributes m.attributes)) (hz' : Fr z (namesArguments m.args)) :
    Rd z (constructorInterfaceMember m) (.mem .iface) (.mem .iface) :=
  (rd_memAttributes _ hz _).seq ((Rd.tok (q := .ctor) .constructor (by simp [next, mem1Next])).seq
    ((rd_argumentList _ hz' (q := .semi .iface) (by simp [next])).seq (rd_semi _)))

/-- The return type, the name and the arguments of an operation. -/
theorem rd_operation (r : ReturnType) (i : Option Str) (as : List Argument) (hz : Fr z (namesReturnType r)) (hz' : Fr z i.toList)
    (hz2 : Fr z (namesArguments as)) (b : Body) {p : St} {ex : List Wd}
    (hp : ∀ x ∈ tyStart ex (.op b), x ∈ next p) {ls : List Str} (hl : (returnNamed r i ⨾ argumentList as ⨾ tok c!";") ls) (hn : Not ex ls)
    {rest : List Str} (hr : Acc z (.mem b) rest) : Acc z p (ls ++ rest) := by
  obtain ⟨x, y, rfl, hx, hy⟩ := hl
  rw [List.append_assoc]
  cases i with
  | none =>
    obtain ⟨d, h1, h2⟩ := rd_returnType r hz x hx ex (.op b) p hn.left hp
    exact h2 _ ((rd_argumentList as hz2 (q := .semi b) (end_next h1.isEnd (by simp [kNext]))).seq (rd_semi b) y hy rest hr)
  | some i =>
    refine (rd_returnType r hz).named hz' hp (q := .opArgs b) (by simp [kNext]) hx hn.left ?_
    exact (rd_argumentList as hz2 (q := .semi b) (by simp [next])).seq (rd_semi b) y hy rest hr

theorem rd_operationNil (r : ReturnType) (i : Option Str) (as : List Argument) (hz : Fr z (namesReturnType r)) (hz' : Fr z i.toList)
    (hz2 : Fr z (namesArguments as)) (b : Body) {p : St}
    (hp : ∀ x ∈ tyStart [] (.op b), x ∈ next p) : Rd z (returnNamed r i ⨾ argumentList as ⨾ tok c!";") p (.mem b) :=
  fun _ hl _ hr => rd_operation r i as hz hz' hz2 b hp hl .nil hr

theorem rd_specialised (s : Option Special) {A : Lang} {p : St} {ex : List Wd} (hs : ∀ x ∈ specials, x ∈ next p)
    (hA : Rd z A (.ty .start (.op .iface)) (.mem .iface))
    (hB : ∀ ls, A ls → Not (ex ++ special) ls → ∀ rest, Acc z (.mem .iface) rest → Acc z p (ls ++ rest)) {ls : List Str}
    (hl : specialised s A ls) (hn : Not ex ls) {rest : List Str} (hr : Acc z (.mem .iface) rest) : Acc z p (ls ++ rest) := by
  match s, hl with
  | none, ⟨h1, h2⟩ =>
    refine hB ls h1 ?_ rest hr
    intro k hk
    rcases List.mem_append.1 hk with h | h
    · exact hn k h
    · apply h2
      simp only [special, List.mem_cons, List.not_mem_nil, or_false] at h
      rcases h with rfl | rfl | rfl | rfl <;> simp [Wd.text]
  | some .getter, hl => exact (Rd.tok .getter (hs _ (by simp [specials, special]))).seq hA ls hl rest hr
  | some .setter, hl => exact (Rd.tok .setter (hs _ (by simp [specials, special]))).seq hA ls hl rest hr
  | some .deleter, hl => exact (Rd.tok .deleter (hs _ (by simp [specials, special]))).seq hA ls hl rest hr
  | some .legacyCaller, hl => exact (Rd.tok .legacycaller (hs _ (by simp [specials, special]))).seq hA ls hl rest hr

theorem rd_operationInterfaceMember (m : OperationInterfaceMember) (hz : Fr z (namesOperation m.attributes m.returnType m.identifier m.args)) :
    Rd z (operationInterfaceMember m) (.mem .iface) (.mem .iface) := by
  simp only [namesOperation, fr_append] at hz
  refine (rd_memAttributes _ hz.1.1.1 _).seq ?_
  rintro ls ⟨hl, -⟩ rest hr
  have hA : Rd z (returnNamed m.returnType m.identifier ⨾ argumentList m.args ⨾ tok c!";") (.ty .start (.op .iface)) (.mem .iface) :=
    rd_operationNil _ _ _ hz.1.1.2 hz.1.2 hz.2 _ (fun _ hx => hx)
  have key : ∀ p, (∀ x ∈ specials, x ∈ next p) → (∀ x ∈ tyStart special (.op .iface), x ∈ next p) →
      Rd z (specialised m.special (returnNamed m.returnType m.identifier ⨾ argumentList m.args ⨾ tok c!";")) p (.mem .iface) := by
    intro p hs hp ls hl rest hr
    exact rd_specialised _ (ex := []) hs hA (fun ls hl hn rest hr => rd_operation _ _ _ hz.1.1.2 hz.1.2 hz.2 _ hp hl hn hr) hl .nil hr
  revert hl
  match m.modifier with
  | none =>
    rintro ⟨h1, h2⟩
    refine rd_specialised _ (ex := [.stringifier, .static]) (p := .mem1 .iface) (fun x hx => by simp [next, mem1Next, hx]) hA
      (fun ls hl hn rest hr => rd_operation _ _ _ hz.1.1.2 hz.1.2 hz.2 _ (ex := [.stringifier, .static] ++ special)
        (fun x hx => List.mem_append_right _ hx) hl hn hr) h1 ?_ hr
    intro k hk
    apply h2
    simp only [List.mem_cons, List.not_mem_nil, or_false] at hk
    rcases hk with rfl | rfl <;> simp [Wd.text]
  | some .stringifier =>
    intro hl
    exact (Rd.tok (q := .strf) .stringifier (by simp [next, mem1Next])).seq
      (key .strf (fun x hx => by simp [next, hx]) (fun x hx => by simp [next, hx])) ls hl rest hr
  | some .static =>
    intro hl
    exact (Rd.tok (q := .stat) .static (by simp [next, mem1Next])).seq
      (key .stat (fun x hx => by simp [next, hx]) (fun x hx => by simp [next, hx])) ls hl rest hr

/-! ### Members with types in angle brackets -/

theorem attributed (t : AttributedType) (hz : Fr z (namesAttributedType t)) {k : K} {ls : List Str} (hl : attributedType t ls) :
    ∃ d : TP, d.isEnd = Bool.true ∧ ∀ rest, Acc z (.ty d k) rest → Acc z (.atty k) (ls ++ rest) := by
  match t, hz, hl with
  | .mk as t, hz, hl =>
    simp only [attributedType] at hl
    simp only [namesAttributedType, fr_append] at hz
    obtain ⟨a, b, rfl, ha, hb⟩ := hl
    obtain ⟨d, h1, h2⟩ := rd_type t hz.2 b hb [] k (.ty .start k) .nil (fun _ hx => hx)
    refine ⟨d, h1.isEnd, fun rest hr => ?_⟩
    rw [List.append_assoc]
    exact rd_atty (grp_attributes as hz.1) k a ha _ (h2 _ hr)

theorem acc_attributed (t : AttributedType) (hz : Fr z (namesAttributedType t)) {k : K} (hk : kFinal k = Bool.true) {ls : List Str} (hl : attributedType t ls) : Acc z (.atty k) ls := by
  obtain ⟨d, h1, h2⟩ := attributed t hz (k := k) hl
  have hf : final (.ty d k) = Bool.true := by cases d <;> first | exact absurd h1 (by decide) | exact hk
  have := h2 [] (.done hf)
  simpa using this

theorem acc_pair (t : AttributedType × AttributedType) (hz : Fr z (namesTypePair t)) {k : K} (hk : ∀ ex, (.w .comma, .atty .one) ∈ kNext ex k) {ls : List Str}
    (hl : typePair t ls) : Acc z (.atty k) ls := by
  obtain ⟨a, _, rfl, ha, _, b, rfl, rfl, hb⟩ := hl
  simp only [namesTypePair, fr_append] at hz
  obtain ⟨d, h1, h2⟩ := attributed t.1 hz.1 (k := k) ha
  exact h2 _ (acc_w (k := .comma) (end_next h1 hk) (acc_attributed t.2 hz.2 rfl hb))

theorem rd_iterableInterfaceMember (m : IterableInterfaceMember) (hz : Fr z (namesInterfaceMember (.iterable m))) :
    Rd z (iterableInterfaceMember m) (.mem .iface) (.mem .iface) := by
  cases m with
  | single as t =>
    simp only [namesInterfaceMember, fr_append] at hz
    exact (rd_memAttributes _ hz.1 _).seq ((Rd.tok (q := .itr) .iterable (by simp [next, mem1Next])).seq
      ((Rd.group .angle (r := .it) (q := .semi .iface) (by simp [next]) fun _ hl => acc_attributed t hz.2 (k := .it) rfl hl).seq (rd_semi _)))
  | double as t =>
    simp only [namesInterfaceMember, fr_append] at hz
    exact (rd_memAttributes _ hz.1 _).seq ((Rd.tok (q := .itr) .iterable (by simp [next, mem1Next])).seq
      ((Rd.group .angle (r := .it) (q := .semi .iface) (by simp [next]) fun _ hl => acc_pair t hz.2 (k := .it) (by simp [kNext]) hl).seq (rd_semi _)))

theorem rd_optArgs (as : Option (List Argument)) (hz : Fr z (namesOptArguments as)) : Rd z (optArgumentList as ⨾ tok c!";") .asy3 (.mem .iface) := by
  cases as with
  | none =>
    rintro ls ⟨_, _, rfl, rfl, rfl⟩ rest hr
    exact acc_w (k := .semi) (q := .mem .iface) (by simp [next]) hr
  | some as => exact (rd_argumentList as hz (q := .semi .iface) (by simp [next])).seq (rd_semi _)

theorem rd_asyncIterableInterfaceMember (m : AsyncIterableInterfaceMember) (hz : Fr z (namesInterfaceMember (.asyncIterable m))) :
    Rd z (asyncIterableInterfaceMember m) (.mem .iface) (.mem .iface) := by
  cases m with
  | single as t args =>
    simp only [namesInterfaceMember, fr_append] at hz
    exact (rd_memAttributes _ hz.1.1 _).seq ((Rd.tok (q := .asy) .async (by simp [next, mem1Next])).seq ((Rd.tok (q := .asy2) .iterable (by simp [next])).seq
      ((Rd.group .angle (r := .it) (q := .asy3) (by simp [next]) fun _ hl => acc_attributed t hz.1.2 (k := .it) rfl hl).seq (rd_optArgs args hz.2))))
  | double as t args =>
    simp only [namesInterfaceMember, fr_append] at hz
    exact (rd_memAttributes _ hz.1.1 _).seq ((Rd.tok (q := .asy) .async (by simp [next, mem1Next])).seq ((Rd.tok (q := .asy2) .iterable (by simp [next])).seq
      ((Rd.group .angle (r := .it) (q := .asy3) (by simp [next]) fun _ hl => acc_pair t hz.1.2 (k := .it) (by simp [kNext]) hl).seq (rd_optArgs args hz.2))))

/-- `readonly`, if given, and a keyword. -/
theorem rd_roWord (ro : Bool) (k : Wd) {q : St} (h : (.w k, q) ∈ next (.mem1 .iface)) (h' : (.w k, q) ∈ next .ro) {A : Lang} {e : St}
    (hA : Rd z A q e) : Rd z (optTok ro c!"readonly" ⨾ tok k.text ⨾ A) (.mem1 .iface) e := by
  cases ro with
  | false =>
    rintro ls ⟨_, x, rfl, rfl, hx⟩ rest hr
    exact (Rd.tok k h).seq hA x hx rest hr
  | true => exact (Rd.tok (q := .ro) .readonly (by simp [next, mem1Next])).seq ((Rd.tok k h').seq hA)

theorem rd_interfaceMember (m : InterfaceMember) (hz : Fr z (namesInterfaceMember m)) : Rd z (interfaceMember m) (.mem .iface) (.mem .iface) := by
  cases m with
  | const m => exact rd_constMember m hz _
  | «attribute» m => exact rd_attributeInterfaceMember m hz
  | constructor m => exact rd_constructorInterfaceMember m (fr_append.1 hz).1 (fr_append.1 hz).2
  | operation m => exact rd_operationInterfaceMember m hz
  | iterable m => exact rd_iterableInterfaceMember m hz
  | asyncIterable m => exact rd_asyncIterableInterfaceMember m hz
  | maplike m =>
    exact (rd_memAttributes _ (fr_append.1 hz).1 _).seq (rd_roWord m.readonly .maplike (q := .mpl) (by simp [next, mem1Next]) (by simp [next])
      ((Rd.group .angle (r := .pair) (q := .semi .iface) (by simp [next]) fun _ hl => acc_pair m.generics (fr_append.1 hz).2 (k := .pair) (by simp [kNext]) hl).seq
        (rd_semi _)))
  | setlike m =>
    exact (rd_memAttributes _ (fr_append.1 hz).1 _).seq (rd_roWord m.readonly .setlike (q := .stl) (by simp [next, mem1Next]) (by simp [next])
      ((Rd.group .angle (r := .att) (q := .semi .iface) (by simp [next]) fun _ hl => acc_attributed m.generics (fr_append.1 hz).2 (k := .one) rfl hl).seq
        (rd_semi _)))
  | stringifier m =>
    exact (rd_memAttributes _ hz _).seq ((Rd.tok (q := .strf) .stringifier (by simp [next, mem1Next])).seq (Rd.tok .semi (by simp [next])))

theorem rd_mixinMember (m : MixinMember) (hz : Fr z (namesMixinMember m)) : Rd z (mixinMember m) (.mem .mixin) (.mem .mixin) := by
  cases m with
  | const m => exact rd_constMember m hz _
  | operation m =>
    simp only [namesMixinMember, namesNamespaceMember, namesOperation, fr_append] at hz
    refine (rd_memAttributes _ hz.1.1.1 _).seq ?_
    unfold optWord
    split
    · exact (Rd.tok (q := .strfM) .stringifier (by simp [next, mem1Next])).seq
        (rd_operationNil _ _ _ hz.1.1.2 hz.1.2 hz.2 _ fun x hx => by simp [next, hx])
    · rintro ls ⟨hl, hn⟩ rest hr
      refine rd_operation _ _ _ hz.1.1.2 hz.1.2 hz.2 _ (ex := [.stringifier]) (fun x hx => List.mem_append_right _ hx) hl ?_ hr
      intro k hk
      simp at hk; subst hk
      exact hn _ (by simp [Wd.text])
  | «attribute» m =>
    simp only [namesMixinMember, namesNamespaceMember, namesAttribute, fr_append] at hz
    refine (rd_memAttributes _ hz.1.1 _).seq ?_
    cases m.stringifier with
    | false =>
      rintro ls ⟨_, x, rfl, rfl, hx⟩ rest hr
      exact rd_roAttr _ _ _ hz.1.2 hz.2 .mixin (p := .mem1 .mixin) (m := .roA .mixin) (by simp [next, mem1Next]) (by simp [next, mem1Next]) (by simp [next]) x hx rest hr
    | true =>
      exact (Rd.tok (q := .strfM) .stringifier (by simp [next, mem1Next])).seq
        (rd_roAttr _ _ _ hz.1.2 hz.2 .mixin (m := .roA .mixin) (by simp [next, roNext]) (by simp [next, roNext]) (by simp [next]))
  | stringifier m =>
    exact (rd_memAttributes _ hz _).seq ((Rd.tok (q := .strfM) .stringifier (by simp [next, mem1Next])).seq (Rd.tok .semi (by simp [next])))

theorem rd_namespaceMember (m : NamespaceMember) (hz : Fr z (namesNamespaceMember m)) : Rd z (namespaceMember m) (.mem .nspace) (.mem .nspace) := by
  cases m with
  | const m => exact rd_constMember m hz _
  | operation m =>
    simp only [namesMixinMember, namesNamespaceMember, namesOperation, fr_append] at hz
    exact (rd_memAttributes _ hz.1.1.1 _).seq (rd_operationNil _ _ _ hz.1.1.2 hz.1.2 hz.2 _ fun x hx => List.mem_append_right _ hx)
  | «attribute» m =>
    simp only [namesMixinMember, namesNamespaceMember, namesAttribute, fr_append] at hz
    exact (rd_memAttributes _ hz.1.1 _).seq ((Rd.tok (q := .roA .nspace) .readonly (by simp [next, mem1Next])).seq (rd_attrRest _ _ hz.1.2 hz.2 _ (by simp [next])))

theorem rd_dictDefault (d : Option DefaultValue) : Rd z (default d ⨾ tok c!";") .dictDef .dmem := by
  cases d with
  | none =>
    rintro ls ⟨_, _, rfl, rfl, rfl⟩ rest hr
    exact acc_w (k := .semi) (q := .dmem) (by simp [next]) hr
  | some v =>
    exact ((Rd.tok (q := .dictVal) .eq (by simp [next])).seq (rd_defaultValue v (p := .dictVal) (q := .dictSemi) (fun _ hx => hx))).seq (Rd.tok .semi (by simp [next]))

theorem rd_dictionaryMember (m : DictionaryMember) (hz : Fr z (namesDictionaryMember m)) : Rd z (dictionaryMember m) .dmem .dmem := by
  simp only [namesDictionaryMember, fr_append] at hz
  refine ((grp_attributes m.attributes hz.1.1).rd (q := .dmem1) (by simp [next])
    fun _ h => acc_sub (p := .dmem) h (fun _ hx => List.mem_cons_of_mem _ hx) (by simp [final])).seq ?_
  unfold optWord
  split
  · exact (Rd.tok (q := .ty .start .dict) .required (by simp [next])).seq
      ((rd_named (rd_type _ hz.1.2) hz.2 (k := .dict) (p := .ty .start .dict) (q := .dictDef) (fun _ hx => hx) (by simp [kNext])).seq (rd_dictDefault _))
  · rintro ls ⟨⟨a, b, rfl, ha, hb⟩, hn⟩ rest hr
    rw [List.append_assoc]
    refine (rd_type _ hz.1.2).named hz.2 (p := .dmem1) (k := .dict) (ex := [.required]) (q := .dictDef) (fun _ hx => List.mem_cons_of_mem _ hx) (by simp [kNext]) ha ?_
      (rd_dictDefault _ b hb rest hr)
    intro k hk hpre
    simp at hk; subst hk
    exact hn [c!"required"] (by simp) (hpre.trans (List.prefix_append _ _))

/-! ## Definitions -/

theorem rd_body {α : Type} {L : α → Lang} (ms : List α) {p : St} {r : Role} (hm : (.grp .curly r, .docSemi) ∈ next p)
    (hf : final (start r) = Bool.true) (hL : ∀ m ∈ ms, Rd z (L m) (start r) (start r)) : Rd z (body L ms) p .doc := by
  refine (Rd.group .curly hm fun ls hl => ?_).seq (Rd.tok .semi (by simp [next]))
  refine (Rd.concat (p := start r) ?_).acc hf hl
  intro A hA
  obtain ⟨m, hm, rfl⟩ := List.mem_map.1 hA
  exact hL m hm

theorem rd_defAttributes (as : Attrs) (hz : Fr z (namesAttributes as)) : Rd z (attributes as) .doc .def1 :=
  (grp_attributes as hz).rd (by simp [next]) fun _ h => acc_sub (p := .doc) h (fun _ hx => List.mem_cons_of_mem _ hx) (by simp [final])

theorem rd_ifcRest (i : Option Str) (ms : List InterfaceMember) (hz : Fr z i.toList) (hz' : ∀ m ∈ ms, Fr z (namesInterfaceMember m)) :
    Rd z (inheritance i ⨾ body interfaceMember ms) .ifcN .doc := by
  cases i with
  | none =>
    rintro ls ⟨_, x, rfl, rfl, hx⟩ rest hr
    exact (rd_body ms (p := .ifcN) (r := .iface) (by simp [next]) rfl fun m hm => rd_interfaceMember m (hz' m hm)) x hx rest hr
  | some i =>
    exact ((Rd.tok (q := .ifcX) .colon (by simp [next])).seq (Rd.name hz (q := .ifcB) (by simp [next]))).seq
      (rd_body ms (r := .iface) (by simp [next]) rfl fun m hm => rd_interfaceMember m (hz' m hm))

theorem rd_dicRest (i : Option Str) (ms : List DictionaryMember) (hz : Fr z i.toList) (hz' : ∀ m ∈ ms, Fr z (namesDictionaryMember m)) :
    Rd z (inheritance i ⨾ body dictionaryMember ms) .dicN .doc := by
  cases i with
  | none =>
    rintro ls ⟨_, x, rfl, rfl, hx⟩ rest hr
    exact (rd_body ms (p := .dicN) (r := .dict) (by simp [next]) rfl fun m hm => rd_dictionaryMember m (hz' m hm)) x hx rest hr
  | some i =>
    exact ((Rd.tok (q := .dicI) .colon (by simp [next])).seq (Rd.name hz (q := .dicB) (by simp [next]))).seq
      (rd_body ms (r := .dict) (by simp [next]) rfl fun m hm => rd_dictionaryMember m (hz' m hm))

theorem rd_docSemi : Rd z (tok c!";") .docSemi .doc := .tok .semi (by simp [next])

theorem acc_enumValues (vs : List Str) : ∀ ls, enumValues vs ls → Acc z .enS ls := by
  rintro ls ⟨hne, c, a, b, rfl, ha, hb⟩
  have hend : Acc z .enE b := by
    cases c with
    | false => cases hb; exact .done rfl
    | true => cases hb; exact acc_w (k := .comma) (q := .enC) (by simp [next]) (.done rfl)
  have key : ∀ (vs : List Str), vs ≠ [] → ∀ p ∈ [St.enS, .enC], ∀ a, sepBy comma (vs.map string) a → Acc z p (a ++ b) := by
    intro vs
    induction vs with
    | nil => exact fun h => absurd rfl h
    | cons v vs ih =>
      intro _ p hp a ha
      have hm : (.str, .enE) ∈ next p := by
        simp only [List.mem_cons, List.not_mem_nil, or_false] at hp
        rcases hp with rfl | rfl <;> simp [next]
      cases vs with
      | nil => exact rd_string hm a ha _ hend
      | cons v' vs =>
        obtain ⟨x, _, rfl, hx, _, y, rfl, rfl, hy⟩ := ha
        have := rd_string hm x hx _ (acc_w (k := .comma) (q := .enC) (by simp [next]) (ih (by simp) .enC (by simp) y hy))
        simpa [Wd.text] using this
  exact key vs hne .enS (by simp) a ha

theorem rd_statement (as : Attrs) (l r : Str) (hz : Fr z (namesAttributes as ++ [l] ++ [r])) (k : Wd) (hk : (.w k, .inc2) ∈ next .inc1) :
    Rd z (attributes as ⨾ avoiding [[c!"typedef"]] (name l) ⨾ tok k.text ⨾ name r ⨾ tok c!";") .doc .doc := by
  simp only [fr_append] at hz
  refine (rd_defAttributes as hz.1.1).seq (Rd.seq (m := .inc1) ?_ ((Rd.tok k hk).seq ((Rd.name hz.2 (q := .docSemi) (by simp [next])).seq rd_docSemi)))
  rintro ls ⟨hl, hn⟩ rest hr
  obtain ⟨w, rfl, hw⟩ := name_single hl
  refine .item (h := .name [.typedef]) (q' := .inc1) (by simp [next, def1Next]) (has_name hw hz.1.2 ?_) hr
  rintro k hk rfl
  simp at hk; subst hk
  exact hn [c!"typedef"] (by simp) ⟨[], rfl⟩

theorem rd_definition (d : Definition) (hz : Fr z (namesDefinition d)) : Rd z (definition d) .doc .doc := by
  cases d with
  | callback as i r args =>
    simp only [namesDefinition, fr_append] at hz
    refine (rd_defAttributes as hz.1.1.1).seq ((Rd.tok (q := .cb) .callback (by simp [next, def1Next])).seq ((Rd.name hz.1.1.2 (q := .cbEq) (by simp [next])).seq
      ((Rd.tok (q := .ty .start .callback) .eq (by simp [next])).seq ?_)))
    intro ls hl rest hr
    exact (rd_returnType r hz.1.2).then (k := .callback) (ex := []) (p := .ty .start .callback) (q := .doc) (fun _ hx => hx)
      (fun e he => (rd_argumentList args hz.2 (q := .docSemi) (end_next he (by simp [kNext]))).seq rd_docSemi) hl .nil hr
  | callbackInterface as i inh ms =>
    simp only [namesDefinition, namesBody, fr_append, fr_flatMap] at hz
    exact (rd_defAttributes as hz.1.1.1).seq ((Rd.tok (q := .cb) .callback (by simp [next, def1Next])).seq ((Rd.tok (q := .ifcI) .interface (by simp [next])).seq
      ((Rd.name hz.1.1.2 (q := .ifcN) (by simp [next])).seq (rd_ifcRest inh ms hz.1.2 hz.2))))
  | interface as i inh ms =>
    simp only [namesDefinition, namesBody, fr_append, fr_flatMap] at hz
    exact (rd_defAttributes as hz.1.1.1).seq ((Rd.tok (q := .ifc) .interface (by simp [next, def1Next])).seq
      ((Rd.name hz.1.1.2 (q := .ifcN) (by simp [next])).seq (rd_ifcRest inh ms hz.1.2 hz.2)))
  | interfaceMixin as i ms =>
    simp only [namesDefinition, namesBody, fr_append, fr_flatMap] at hz
    exact (rd_defAttributes as hz.1.1.1).seq ((Rd.tok (q := .ifc) .interface (by simp [next, def1Next])).seq ((Rd.tok (q := .mix) .mixin (by simp [next])).seq
      ((Rd.name hz.1.1.2 (q := .mixB) (by simp [next])).seq (rd_body ms (r := .mixin) (by simp [next]) rfl fun m hm => rd_mixinMember m (hz.2 m hm)))))
  | «namespace» as i ms =>
    simp only [namesDefinition, namesBody, fr_append, fr_flatMap] at hz
    exact (rd_defAttributes as hz.1.1.1).seq ((Rd.tok (q := .nsp) .nspace (by simp [next, def1Next])).seq
      ((Rd.name hz.1.1.2 (q := .nspB) (by simp [next])).seq (rd_body ms (r := .nspace) (by simp [next]) rfl fun m hm => rd_namespaceMember m (hz.2 m hm))))
  | dictionary as i inh ms =>
    simp only [namesDefinition, namesBody, fr_append, fr_flatMap] at hz
    exact (rd_defAttributes as hz.1.1.1).seq ((Rd.tok (q := .dic) .dictionary (by simp [next, def1Next])).seq
      ((Rd.name hz.1.1.2 (q := .dicN) (by simp [next])).seq (rd_dicRest inh ms hz.1.2 hz.2)))
  | partialInterface as i ms =>
    simp only [namesDefinition, namesBody, fr_append, fr_flatMap] at hz
    exact (rd_defAttributes as hz.1.1.1).seq ((Rd.tok (q := .par) .part (by simp [next, def1Next])).seq ((Rd.tok (q := .ifc) .interface (by simp [next])).seq
      ((Rd.name hz.1.1.2 (q := .ifcN) (by simp [next])).seq (rd_body ms (r := .iface) (by simp [next]) rfl fun m hm => rd_interfaceMember m (hz.2 m hm)))))
  | partialInterfaceMixin as i ms =>
    simp only [namesDefinition, namesBody, fr_append, fr_flatMap] at hz
    exact (rd_defAttributes as hz.1.1.1).seq ((Rd.tok (q := .par) .part (by simp [next, def1Next])).seq ((Rd.tok (q := .ifc) .interface (by simp [next])).seq
      ((Rd.tok (q := .mix) .mixin (by simp [next])).seq
        ((Rd.name hz.1.1.2 (q := .mixB) (by simp [next])).seq (rd_body ms (r := .mixin) (by simp [next]) rfl fun m hm => rd_mixinMember m (hz.2 m hm))))))
  | partialDictionary as i ms =>
    simp only [namesDefinition, namesBody, fr_append, fr_flatMap] at hz
    exact (rd_defAttributes as hz.1.1.1).seq ((Rd.tok (q := .par) .part (by simp [next, def1Next])).seq ((Rd.tok (q := .dic) .dictionary (by simp [next])).seq
      ((Rd.name hz.1.1.2 (q := .dicN) (by simp [next])).seq (rd_body ms (r := .dict) (by simp [next]) rfl fun m hm => rd_dictionaryMember m (hz.2 m hm)))))
  | partialNamespace as i ms =>
    simp only [namesDefinition, namesBody, fr_append, fr_flatMap] at hz
    exact (rd_defAttributes as hz.1.1.1).seq ((Rd.tok (q := .par) .part (by simp [next, def1Next])).seq ((Rd.tok (q := .nsp) .nspace (by simp [next])).seq
      ((Rd.name hz.1.1.2 (q := .nspB) (by simp [next])).seq (rd_body ms (r := .nspace) (by simp [next]) rfl fun m hm => rd_namespaceMember m (hz.2 m hm)))))
  | enum as i vs =>
    simp only [namesDefinition, fr_append] at hz
    exact (rd_defAttributes as hz.1).seq ((Rd.tok (q := .enu) .enum (by simp [next, def1Next])).seq ((Rd.name hz.2 (q := .enuB) (by simp [next])).seq
      ((Rd.group .curly (r := .enum) (q := .docSemi) (by simp [next]) (acc_enumValues vs)).seq rd_docSemi)))
  | typedef as t i =>
    simp only [namesDefinition, namesAttribute, fr_append] at hz
    exact (rd_defAttributes as hz.1.1).seq ((Rd.tok (q := .atty .typedef) .typedef (by simp [next, def1Next])).seq
      ((rd_namedAttributed t i .typedef .docSemi hz.1.2 hz.2 (by simp [kNext])).seq rd_docSemi))
  | includesStatement as l r => exact rd_statement as l r hz .includes (by simp [next])
  | implements as l r => exact rd_statement as l r hz .implements (by simp [next])

/-- The items of a document are accepted. -/
theorem acc_definitions {ds : List Definition} (hz : Fr z (names ds)) {ls : List Str} (h : definitions ds ls) : Acc z .doc ls := by
  refine (Rd.concat (p := .doc) ?_).acc rfl h
  intro A hA
  obtain ⟨d, hd, rfl⟩ := List.mem_map.1 hA
  exact rd_definition d (fr_flatMap.1 hz d hd)

end Verif.Auto
