import Verif.Source.Legal
import Verif.Source.TypeCheck
import Verif.Source.ConvType
import Verif.Proof.Print

/-!
# The values of the types of the crate

What a value of a type is, by the declaration of the type. The definitions serve the proof only, they model no code.
-/

namespace Verif.Source.Exact
open Spec

/-- A value of the type with no part that is not `Legal`, of bounded size. -/
structure Good (n : Nat) (T : RTy) (v : Val) : Prop where
  type : HasType crateItems T v
  legal : ∀ u, Part u v → Legal u
  size : sizeOf v ≤ n

/-- Every such value is that of an AST. -/
def Onto {α : Type} (n : Nat) (T : RTy) (f : α → Val) (W : α → Prop) : Prop := ∀ v, Good n T v → ∃ a, v = f a ∧ W a

def Fields (n : Nat) : List (Str × RTy) → List (Str × Val) → Prop
  | [], vs => vs = []
  | (x, T) :: fs, vs => ∃ w ws, vs = (x, w) :: ws ∧ Good n T w ∧ Fields n fs ws

def Alts (n : Nat) (x : Str) : List (Str × RTy) → Val → Prop
  | [], _ => False
  | (y, T) :: us, v => (∃ w, v = .variant x y w ∧ Good n T w) ∨ Alts n x us v

theorem Good.le {n m : Nat} {T : RTy} {v : Val} (g : Good n T v) (h : n ≤ m) : Good m T v := ⟨g.1, g.2, Nat.le_trans g.3 h⟩

theorem Good.here {n : Nat} {T : RTy} {v : Val} (g : Good n T v) : Legal v := g.2 _ .refl

theorem not_std {it : Item} (h : it ∈ crateItems) {n : Str} (e : it.typeName = some n) (hn : n ∈ stdNames) : False :=
  unique.std it h n hn e

theorem subst_nil (ts : List RTy) : ∀ T : RTy, T.subst (assign [] ts) = T
  | .path0 n => rfl
  | .path1 n t => by simp [RTy.subst, subst_nil ts t]
  | .path2 n t u => by simp [RTy.subst, subst_nil ts t, subst_nil ts u]
  | .path3 n t u v => by simp [RTy.subst, subst_nil ts t, subst_nil ts u, subst_nil ts v]

theorem alts_of_mem {n : Nat} {x y : Str} {T : RTy} {w : Val} (g : Good n T w) : ∀ {us : List (Str × RTy)}, (y, T) ∈ us →
    Alts n x us (.variant x y w)
  | (z, U) :: us, h => by
    rcases List.mem_cons.1 h with h | h
    · cases h; exact .inl ⟨w, rfl, g⟩
    · exact .inr (alts_of_mem g h)

theorem fields_of {n : Nat} {σ : Str → Option RTy} : ∀ {fs : List (Str × RTy)} {vs : List (Str × Val)}, vs.map Prod.fst = fs.map Prod.fst →
    (∀ p ∈ fs.zip vs, Good n (p.1.2.subst σ) p.2.2) → Fields n (fs.map fun f => (f.1, f.2.subst σ)) vs
  | [], [], _, _ => rfl
  | [], _ :: _, h, _ => by cases h
  | _ :: _, [], h, _ => by cases h
  | (x, T) :: fs, (y, w) :: vs, h, hg => by
    simp only [List.map_cons, List.cons.injEq] at h
    obtain ⟨h1, h2⟩ := h
    cases h1
    exact ⟨w, vs, rfl, hg ((x, T), (x, w)) (by simp), fields_of h2 fun p hp => hg p (by simp [hp])⟩

theorem size_list {v : Val} : ∀ {vs : List Val}, v ∈ vs → sizeOf v < sizeOf vs
  | w :: vs, h => by
    rcases List.mem_cons.1 h with rfl | h
    · simp; omega
    · have := size_list h
      simp; omega

theorem size_fields {x : Str} {v : Val} : ∀ {vs : List (Str × Val)}, (x, v) ∈ vs → sizeOf v < sizeOf vs
  | w :: vs, h => by
    rcases List.mem_cons.1 h with rfl | h
    · simp; omega
    · have := size_fields h
      simp; omega

theorem Good.token {n : Nat} {x : Str} {v : Val} (hm : .unit x ∈ crateItems) (g : Good n (.path0 x) v) : v = .token x := by
  have hn (y : Str) (e : y = x) (h : y ∈ stdNames) : False := not_std hm (n := x) rfl (e ▸ h)
  generalize hT : RTy.path0 x = T at g
  cases g.type with
  | unit => cases hT; exact (hn _ rfl (by decide)).elim
  | str => cases hT; exact (hn _ rfl (by decide)).elim
  | char => cases hT; exact (hn _ rfl (by decide)).elim
  | bool => cases hT; exact (hn _ rfl (by decide)).elim
  | token => cases hT; rfl
  | newtype h => cases hT; cases unique.uniq _ hm _ h x rfl rfl
  | struct h => cases hT; cases unique.uniq _ hm _ h x rfl rfl
  | variant h => cases hT; cases unique.uniq _ hm _ h x rfl rfl
  | «alias» h => cases hT; cases unique.uniq _ hm _ h x rfl rfl
  | _ => cases hT

theorem Good.newtype {n : Nat} {x : Str} {U : RTy} {v : Val} (hm : .tuple x [] U ∈ crateItems) (g : Good n (.path0 x) v) :
    ∃ w, v = .newtype x w ∧ Good n U w ∧ Legal v := by
  have hn (y : Str) (e : y = x) (h : y ∈ stdNames) : False := not_std hm (n := x) rfl (e ▸ h)
  have hl := g.here
  generalize hT : RTy.path0 x = T at g
  cases g.type with
  | unit => cases hT; exact (hn _ rfl (by decide)).elim
  | str => cases hT; exact (hn _ rfl (by decide)).elim
  | char => cases hT; exact (hn _ rfl (by decide)).elim
  | bool => cases hT; exact (hn _ rfl (by decide)).elim
  | token h => cases hT; cases unique.uniq _ hm _ h x rfl rfl
  | newtype h h' =>
    cases hT
    cases unique.uniq _ hm _ h x rfl rfl
    refine ⟨_, rfl, ⟨h', fun u hu => g.legal _ (.newtype hu), ?_⟩, hl⟩
    have := g.size
    simp at this; omega
  | struct h => cases hT; cases unique.uniq _ hm _ h x rfl rfl
  | variant h => cases hT; cases unique.uniq _ hm _ h x rfl rfl
  | «alias» h => cases hT; cases unique.uniq _ hm _ h x rfl rfl
  | _ => cases hT

theorem Good.alias {n : Nat} {x : Str} {U : RTy} {v : Val} (hm : .alias x U ∈ crateItems) (g : Good n (.path0 x) v) : Good n U v := by
  have hn (y : Str) (e : y = x) (h : y ∈ stdNames) : False := not_std hm (n := x) rfl (e ▸ h)
  generalize hT : RTy.path0 x = T at g
  cases g.type with
  | unit => cases hT; exact (hn _ rfl (by decide)).elim
  | str => cases hT; exact (hn _ rfl (by decide)).elim
  | char => cases hT; exact (hn _ rfl (by decide)).elim
  | bool => cases hT; exact (hn _ rfl (by decide)).elim
  | token h => cases hT; cases unique.uniq _ hm _ h x rfl rfl
  | newtype h => cases hT; cases unique.uniq _ hm _ h x rfl rfl
  | struct h => cases hT; cases unique.uniq _ hm _ h x rfl rfl
  | variant h => cases hT; cases unique.uniq _ hm _ h x rfl rfl
  | «alias» h h' => cases hT; cases unique.uniq _ hm _ h x rfl rfl; exact ⟨h', g.2, g.3⟩
  | _ => cases hT

theorem Good.enum {n : Nat} {x : Str} {us : List (Str × RTy)} {v : Val} (hm : .enum x us ∈ crateItems) (g : Good n (.path0 x) v) :
    Alts n x us v := by
  have hn (y : Str) (e : y = x) (h : y ∈ stdNames) : False := not_std hm (n := x) rfl (e ▸ h)
  generalize hT : RTy.path0 x = T at g
  cases g.type with
  | unit => cases hT; exact (hn _ rfl (by decide)).elim
  | str => cases hT; exact (hn _ rfl (by decide)).elim
  | char => cases hT; exact (hn _ rfl (by decide)).elim
  | bool => cases hT; exact (hn _ rfl (by decide)).elim
  | token h => cases hT; cases unique.uniq _ hm _ h x rfl rfl
  | newtype h => cases hT; cases unique.uniq _ hm _ h x rfl rfl
  | struct h => cases hT; cases unique.uniq _ hm _ h x rfl rfl
  | variant h hv h' =>
    cases hT
    cases unique.uniq _ hm _ h x rfl rfl
    refine alts_of_mem ⟨h', fun u hu => g.legal _ (.variant hu), ?_⟩ hv
    have := g.size
    simp at this; omega
  | «alias» h => cases hT; cases unique.uniq _ hm _ h x rfl rfl
  | _ => cases hT

theorem Good.generic {n : Nat} {T : RTy} {x : Str} {ps : List Str} {fs : List (Str × RTy)} {v : Val} (g : Good (n + 1) T v)
    (hx : x = T.name) (hm : .struct x ps fs ∈ crateItems) :
    ∃ vs, v = .struct x vs ∧ Fields n (fs.map fun f => (f.1, f.2.subst (assign ps T.args))) vs ∧ Legal v := by
  subst hx
  have hn (y : Str) (e : y = T.name) (h : y ∈ stdNames) : False := not_std hm (n := T.name) rfl (e ▸ h)
  have hl := g.here
  cases g.type with
  | token h => cases unique.uniq _ hm _ h _ rfl rfl
  | newtype h => cases unique.uniq _ hm _ h _ rfl rfl
  | struct h h2 h3 h4 =>
    cases unique.uniq _ hm _ h T.name rfl rfl
    refine ⟨_, rfl, fields_of h3 fun p hp => ⟨h4 p hp, fun u hu => g.legal u ?_, ?_⟩, hl⟩
    · exact .struct (x := p.2.1) (List.of_mem_zip hp).2 hu
    · have h5 : sizeOf p.2.2 < _ := size_fields (x := p.2.1) (v := p.2.2) (List.of_mem_zip hp).2
      have := g.size
      simp only [Val.struct.sizeOf_spec] at this
      omega
  | variant h => cases unique.uniq _ hm _ h _ rfl rfl
  | «alias» h => cases unique.uniq _ hm _ h _ rfl rfl
  | _ => exact (hn _ rfl (by simp [RTy.name, stdNames])).elim

theorem Good.struct {n : Nat} {x : Str} {fs : List (Str × RTy)} {v : Val} (hm : .struct x [] fs ∈ crateItems) (g : Good n (.path0 x) v) :
    ∃ vs, v = .struct x vs ∧ Fields n fs vs ∧ Legal v := by
  have := (g.le (Nat.le_succ n)).generic (T := .path0 x) rfl hm
  simpa only [subst_nil, List.map_id', RTy.name] using this

theorem Good.pos {T : RTy} {v : Val} (g : Good 0 T v) : False := by
  have := g.size
  cases v <;> simp at this

theorem str_inv {n : Nat} {v : Val} (g : Good n (.path0 c!"&str") v) : ∃ s, v = .str s := by
  generalize hT : RTy.path0 c!"&str" = T at g
  cases g.type with
  | str s => exact ⟨s, rfl⟩
  | token h => cases hT; exact (not_std h rfl (by decide)).elim
  | newtype h => cases hT; exact (not_std h rfl (by decide)).elim
  | struct h => cases hT; exact (not_std h rfl (by simp [RTy.name, stdNames])).elim
  | variant h => cases hT; exact (not_std h rfl (by decide)).elim
  | «alias» h => cases hT; exact (not_std h rfl (by decide)).elim
  | _ => cases hT

theorem bool_inv {n : Nat} {v : Val} (g : Good n (.path0 c!"bool") v) : ∃ s, v = .bool s := by
  generalize hT : RTy.path0 c!"bool" = T at g
  cases g.type with
  | bool s => exact ⟨s, rfl⟩
  | token h => cases hT; exact (not_std h rfl (by decide)).elim
  | newtype h => cases hT; exact (not_std h rfl (by decide)).elim
  | struct h => cases hT; exact (not_std h rfl (by simp [RTy.name, stdNames])).elim
  | variant h => cases hT; exact (not_std h rfl (by decide)).elim
  | «alias» h => cases hT; exact (not_std h rfl (by decide)).elim
  | _ => cases hT

theorem option_inv {n : Nat} {T : RTy} {v : Val} (g : Good n (.path1 c!"Option" T) v) : v = .none ∨ ∃ w, v = .some w ∧ Good n T w := by
  generalize hT : RTy.path1 c!"Option" T = U at g
  cases g.type with
  | none => exact .inl rfl
  | some h =>
    cases hT
    refine .inr ⟨_, rfl, h, fun u hu => g.legal u (.some hu), ?_⟩
    have := g.size
    simp at this; omega
  | struct h => cases hT; exact (not_std h rfl (by simp [RTy.name, stdNames])).elim
  | _ => cases hT

theorem vec_inv {n : Nat} {T : RTy} {v : Val} (g : Good n (.path1 c!"Vec" T) v) : ∃ vs, v = .list vs ∧ ∀ w ∈ vs, Good n T w := by
  generalize hT : RTy.path1 c!"Vec" T = U at g
  cases g.type with
  | list h =>
    cases hT
    refine ⟨_, rfl, fun w hw => ⟨h w hw, fun u hu => g.legal u (.list hw hu), ?_⟩⟩
    have := g.size
    have := size_list hw
    simp at *; omega
  | struct h => cases hT; exact (not_std h rfl (by simp [RTy.name, stdNames])).elim
  | _ => cases hT

theorem box_inv {n : Nat} {T : RTy} {v : Val} (g : Good n (.path1 c!"Box" T) v) : ∃ w, v = .box w ∧ Good n T w := by
  generalize hT : RTy.path1 c!"Box" T = U at g
  cases g.type with
  | box h =>
    cases hT
    refine ⟨_, rfl, h, fun u hu => g.legal u (.box hu), ?_⟩
    have := g.size
    simp at this; omega
  | struct h => cases hT; exact (not_std h rfl (by simp [RTy.name, stdNames])).elim
  | _ => cases hT

theorem pair_inv {n : Nat} {T U : RTy} {v : Val} (g : Good n (.path2 c!"(,)" T U) v) : ∃ w x, v = .pair w x ∧ Good n T w ∧ Good n U x := by
  generalize hT : RTy.path2 c!"(,)" T U = V at g
  cases g.type with
  | pair h h' =>
    cases hT
    refine ⟨_, _, rfl, ⟨h, fun u hu => g.legal u (.pair1 hu), ?_⟩, ⟨h', fun u hu => g.legal u (.pair2 hu), ?_⟩⟩ <;>
    · have := g.size
      simp at this; omega
  | struct h => cases hT; exact (not_std h rfl (by simp [RTy.name, stdNames])).elim
  | _ => cases hT

theorem triple_inv {n : Nat} {T U V : RTy} {v : Val} (g : Good n (.path3 c!"(,,)" T U V) v) :
    ∃ w x y, v = .triple w x y ∧ Good n T w ∧ Good n U x ∧ Good n V y := by
  generalize hT : RTy.path3 c!"(,,)" T U V = X at g
  cases g.type with
  | triple h h' h'' =>
    cases hT
    refine ⟨_, _, _, rfl, ⟨h, fun u hu => g.legal u (.triple1 hu), ?_⟩, ⟨h', fun u hu => g.legal u (.triple2 hu), ?_⟩,
      ⟨h'', fun u hu => g.legal u (.triple3 hu), ?_⟩⟩ <;>
    · have := g.size
      simp at this; omega
  | struct h => cases hT; exact (not_std h rfl (by simp [RTy.name, stdNames])).elim
  | _ => cases hT

/-! ## Values without content -/

theorem unit_mem {x : Str} (h : x ∈ unitNames) : .unit x ∈ crateItems := by
  obtain ⟨it, hi, e⟩ := List.mem_filterMap.1 h
  cases it <;> simp only [Item.unitName, Option.some.injEq, reduceCtorEq] at e
  subst e
  exact types_mem _ hi

theorem kw {n : Nat} (k : Kw) {v : Val} (g : Good n (.path0 (kwType k)) v) : v = kwVal k := g.token (unit_mem (kw_unit k))

theorem punct {n : Nat} (p : Punct) {v : Val} (g : Good n (.path0 (punctType p)) v) : v = punctVal p := g.token (unit_mem (punct_unit p))

theorem flagOf {n : Nat} {T : RTy} {x v : Val} (h : ∀ w, Good n T w → w = x) (g : Good n (.path1 c!"Option" T) v) : ∃ b, v = flagVal x b := by
  rcases option_inv g with rfl | ⟨w, rfl, g'⟩
  · exact ⟨false, rfl⟩
  · obtain rfl := h w g'
    exact ⟨true, rfl⟩

theorem kwFlag {n : Nat} (k : Kw) {v : Val} (g : Good n (.path1 c!"Option" (.path0 (kwType k))) v) : ∃ b, v = flagVal (kwVal k) b :=
  flagOf (fun _ => kw k) g

theorem punctFlag {n : Nat} (p : Punct) {v : Val} (g : Good n (.path1 c!"Option" (.path0 (punctType p))) v) :
    ∃ b, v = flagVal (punctVal p) b :=
  flagOf (fun _ => punct p) g

theorem opt {α : Type} {n : Nat} {T : RTy} {f : α → Val} {W : α → Prop} (h : Onto n T f W) :
    Onto n (.path1 c!"Option" T) (optVal f) fun o => ∀ a, o = some a → W a := by
  intro v g
  rcases option_inv g with rfl | ⟨w, rfl, g'⟩
  · exact ⟨none, rfl, by simp⟩
  · obtain ⟨a, rfl, w⟩ := h _ g'
    exact ⟨some a, rfl, by simpa⟩

theorem all {α : Type} {n : Nat} {T : RTy} {f : α → Val} {W : α → Prop} (h : Onto n T f W) : ∀ {vs : List Val}, (∀ w ∈ vs, Good n T w) →
    ∃ as : List α, vs = as.map f ∧ ∀ a ∈ as, W a
  | [], _ => ⟨[], rfl, by simp⟩
  | v :: vs, hg => by
    obtain ⟨a, rfl, w⟩ := h _ (hg v (by simp))
    obtain ⟨as, rfl, ws⟩ := all h (vs := vs) fun w hw => hg w (by simp [hw])
    exact ⟨a :: as, rfl, by simpa using ⟨w, ws⟩⟩

theorem vec {α : Type} {n : Nat} {T : RTy} {f : α → Val} {W : α → Prop} (h : Onto n T f W) :
    Onto n (.path1 c!"Vec" T) (fun as : List α => .list (as.map f)) fun as => ∀ a ∈ as, W a := by
  intro v g
  obtain ⟨vs, rfl, g'⟩ := vec_inv g
  obtain ⟨as, rfl, w⟩ := all h g'
  exact ⟨as, rfl, w⟩

/-! ## Generic structs -/

theorem paren_inv {n : Nat} {T : RTy} {v : Val} (g : Good (n + 1) (.path1 c!"Parenthesized" T) v) : ∃ w, v = parenVal w ∧ Good n T w := by
  have hm : Item.struct c!"Parenthesized" [c!"T"]
      [(c!"open_paren", .path0 c!"OpenParen"), (c!"body", .path0 c!"T"), (c!"close_paren", .path0 c!"CloseParen")] ∈ crateItems := by decide +kernel
  obtain ⟨vs, rfl, h, -⟩ := g.generic rfl hm
  obtain ⟨w1, _, rfl, g1, w2, _, rfl, g2, w3, _, rfl, g3, rfl⟩ := h
  obtain rfl := punct .openParen g1
  obtain rfl := punct .closeParen g3
  exact ⟨w2, rfl, g2⟩

theorem bracket_inv {n : Nat} {T : RTy} {v : Val} (g : Good (n + 1) (.path1 c!"Bracketed" T) v) : ∃ w, v = bracketVal w ∧ Good n T w := by
  have hm : Item.struct c!"Bracketed" [c!"T"]
      [(c!"open_bracket", .path0 c!"OpenBracket"), (c!"body", .path0 c!"T"), (c!"close_bracket", .path0 c!"CloseBracket")] ∈ crateItems := by decide +kernel
  obtain ⟨vs, rfl, h, -⟩ := g.generic rfl hm
  obtain ⟨w1, _, rfl, g1, w2, _, rfl, g2, w3, _, rfl, g3, rfl⟩ := h
  obtain rfl := punct .openBracket g1
  obtain rfl := punct .closeBracket g3
  exact ⟨w2, rfl, g2⟩

theorem brace_inv {n : Nat} {T : RTy} {v : Val} (g : Good (n + 1) (.path1 c!"Braced" T) v) : ∃ w, v = braceVal w ∧ Good n T w := by
  have hm : Item.struct c!"Braced" [c!"T"]
      [(c!"open_brace", .path0 c!"OpenBrace"), (c!"body", .path0 c!"T"), (c!"close_brace", .path0 c!"CloseBrace")] ∈ crateItems := by decide +kernel
  obtain ⟨vs, rfl, h, -⟩ := g.generic rfl hm
  obtain ⟨w1, _, rfl, g1, w2, _, rfl, g2, w3, _, rfl, g3, rfl⟩ := h
  obtain rfl := punct .openBrace g1
  obtain rfl := punct .closeBrace g3
  exact ⟨w2, rfl, g2⟩

theorem generics_inv {n : Nat} {T : RTy} {v : Val} (g : Good (n + 1) (.path1 c!"Generics" T) v) : ∃ w, v = genericsVal w ∧ Good n T w := by
  have hm : Item.struct c!"Generics" [c!"T"]
      [(c!"open_angle", .path0 c!"LessThan"), (c!"body", .path0 c!"T"), (c!"close_angle", .path0 c!"GreaterThan")] ∈ crateItems := by decide +kernel
  obtain ⟨vs, rfl, h, -⟩ := g.generic rfl hm
  obtain ⟨w1, _, rfl, g1, w2, _, rfl, g2, w3, _, rfl, g3, rfl⟩ := h
  obtain rfl := punct .lessThan g1
  obtain rfl := punct .greaterThan g3
  exact ⟨w2, rfl, g2⟩

theorem null_inv {n : Nat} {T : RTy} {v : Val} (g : Good n (.path1 c!"MayBeNull" T) v) : ∃ w q, v = nullVal w q ∧ Good n T w := by
  have hm : Item.struct c!"MayBeNull" [c!"T"]
      [(c!"type_", .path0 c!"T"), (c!"q_mark", .path1 c!"Option" (.path0 c!"QMark"))] ∈ crateItems := by decide +kernel
  obtain ⟨vs, rfl, h, -⟩ := (g.le (Nat.le_succ n)).generic rfl hm
  obtain ⟨w1, _, rfl, g1, w2, _, rfl, g2, rfl⟩ := h
  obtain ⟨q, rfl⟩ := punctFlag .qMark g2
  exact ⟨w1, q, rfl, g1⟩

theorem list_inv {n : Nat} {T S : RTy} {v sep : Val} (hs : ∀ w, Good n S w → w = sep) (g : Good n (.path2 c!"Punctuated" T S) v) :
    ∃ vs, v = punctuatedVal sep vs ∧ ∀ w ∈ vs, Good n T w := by
  have hm : Item.struct c!"Punctuated" [c!"T", c!"S"]
      [(c!"list", .path1 c!"Vec" (.path0 c!"T")), (c!"separator", .path0 c!"S")] ∈ crateItems := by decide +kernel
  obtain ⟨vs, rfl, h, -⟩ := (g.le (Nat.le_succ n)).generic rfl hm
  obtain ⟨w1, _, rfl, g1, w2, _, rfl, g2, rfl⟩ := h
  obtain rfl := hs _ g2
  obtain ⟨vs, rfl, h⟩ := vec_inv g1
  exact ⟨vs, rfl, h⟩

theorem nonempty_inv {n : Nat} {T S : RTy} {v sep : Val} (hs : ∀ w, Good n S w → w = sep) (g : Good n (.path2 c!"PunctuatedNonEmpty" T S) v) :
    ∃ vs, v = punctuatedNonEmptyVal sep vs ∧ (∀ w ∈ vs, Good n T w) ∧ vs ≠ [] := by
  have hm : Item.struct c!"PunctuatedNonEmpty" [c!"T", c!"S"]
      [(c!"list", .path1 c!"Vec" (.path0 c!"T")), (c!"separator", .path0 c!"S")] ∈ crateItems := by decide +kernel
  obtain ⟨vs, rfl, h, l⟩ := (g.le (Nat.le_succ n)).generic rfl hm
  obtain ⟨w1, _, rfl, g1, w2, _, rfl, g2, rfl⟩ := h
  obtain rfl := hs _ g2
  obtain ⟨vs, rfl, h⟩ := vec_inv g1
  refine ⟨vs, rfl, h, ?_⟩
  rintro rfl
  exact l.nonempty _ rfl rfl

end Verif.Source.Exact
