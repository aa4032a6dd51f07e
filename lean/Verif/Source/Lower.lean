import Verif.Source.Run
import Verif.Proof.ByteLeaf

/-!
# Declarations as items

What the macros make of a declaration, and the proof that it means the same. (That the macros do make this of it is
checked by expanding them, in `Verif/Source/Expand*.lean`.) The definitions without a line of `/repo` serve the proof only.
-/

namespace Verif.Source
open Nom

/-- The condition in `ident_tag!`, `/repo/src/term.rs:18-36` -/
def identCond : ByteCond := .or .alphanumeric (.or (.eq '_') (.eq '-'))

/-- `m!(i, ..)`; `none` stands for the inner part of one of nom's macros. -/
def wrap : Option Str → Code → Code
  | some i, c => .at i c
  | none, c => c

/-- A macro of nom. -/
def Mac.lower : Mac → Option Str → Code
  | .weedle t, p => .call t (p.getD c!"$i")
  | .sp, p => .fn c!"sp" (p.getD c!"$i")
  | .bind x m k, p => wrap p (.bind (m.lower (some c!"$i")) c!"$i" (x.getD c!"$_") (k.lower none))
  | .ret e, p => wrap p (.ok c!"$i" (.expr e))
  | .alt m k, p => wrap p (.alt (m.lower (some c!"$i")) (k.lower none))
  | .altEnd, p => wrap p .altEnd
  | .map m x e, p => wrap p (.map (m.lower (some c!"$i")) x e)
  | .opt m, p => wrap p (.opt (m.lower (some c!"$i")))
  | .many0 m, p => wrap p (.many0 (m.lower (some c!"$i")))
  | .separatedList s m, p => wrap p (.separatedList (s.lower (some c!"$i")) (m.lower (some c!"$i")))
  | .separatedNonemptyList s m, p => wrap p (.separatedNonemptyList (s.lower (some c!"$i")) (m.lower (some c!"$i")))
  | .terminated m k, p => wrap p (.terminated (m.lower (some c!"$i")) (k.lower (some c!"$i")))
  | .condSome x m, p => wrap p (.condSome x (m.lower (some c!"$i")))
  | .recognize m, p => wrap p (.recognize (m.lower (some c!"$i")))
  | .tag t, p => .prim (.tag t) (p.getD c!"$i")
  | .identTag t, p => .bind (.prim (.tag t) (p.getD c!"$i")) c!"i" c!"o" (.unless c!"i" c!"o" c!"i" identCond (p.getD c!"$i"))
  | .takeUntil t, p => .prim (.takeUntil t) (p.getD c!"$i")
  | .takeWhile c, p => .prim (.takeWhile c) (p.getD c!"$i")
  | .takeWhile1 c, p => .prim (.takeWhile1 c) (p.getD c!"$i")
  | .char c, p => .prim (.char c) (p.getD c!"$i")
  | .oneOf cs, p => .prim (.oneOf cs) (p.getD c!"$i")

/-- Names that a variable must not have. -/
def reserved : List Str := [c!"$i", c!"$_", c!"i", c!"o", c!"input"]

def clean (x : Str) : Bool := decide (x ∉ reserved)

def Expr.clean : Expr → Bool
  | .var x | .box x | .unwrapOrNone x => Source.clean x
  | .pair x y => Source.clean x && Source.clean y
  | .triple x y z => Source.clean x && Source.clean y && Source.clean z
  | _ => true

/-- The variables have no reserved names, and `ident_tag!` is not applied to the variable `i`. -/
def Mac.clean : Mac → Option Str → Bool
  | .bind x m k, _ => (match x with | some x => Source.clean x | none => true) && m.clean (some c!"$i") && k.clean none
  | .ret e, _ => e.clean
  | .map m x e, _ => m.clean (some c!"$i") && Source.clean x && e.clean
  | .alt m k, _ => m.clean (some c!"$i") && k.clean none
  | .opt m, _ | .many0 m, _ | .recognize m, _ => m.clean (some c!"$i")
  | .separatedList m k, _ | .separatedNonemptyList m k, _ | .terminated m k, _ => m.clean (some c!"$i") && k.clean (some c!"$i")
  | .condSome x m, _ => Source.clean x && m.clean (some c!"$i")
  | .identTag _, p => p.getD c!"$i" != c!"i" && p.getD c!"$i" != c!"o"
  | _, _ => true

/-- The same values for variables that are not reserved. -/
def Same (env env' : Env) : Prop := ∀ x, clean x = true → env'.get x = env.get x

theorem get_cons (y : Str) (v : Val) (env : Env) (x : Str) :
    Env.get ((y, v) :: env) x = if y = x then v else env.get x := rfl

theorem get_self (y : Str) (v : Val) (env : Env) : Env.get ((y, v) :: env) y = v := by simp [get_cons]

theorem clean_ne {x y : Str} (h : clean x = true) (hy : y ∈ reserved) : y ≠ x := by
  rintro rfl
  simp [clean] at h
  exact h hy

theorem Same.hide {env env' : Env} (h : Same env env') {y : Str} (hy : y ∈ reserved) (v : Val) :
    Same env ((y, v) :: env') := fun x hx => by
  rw [get_cons, if_neg (clean_ne hx hy), h x hx]

theorem Same.push {env env' : Env} (h : Same env env') (y : Str) (v : Val) : Same ((y, v) :: env) ((y, v) :: env') :=
  fun x hx => by
    rw [get_cons, get_cons]
    split
    · rfl
    · exact h x hx

theorem Same.expr {env env' : Env} (h : Same env env') {e : Expr} (he : e.clean = true) : e.eval env' = e.eval env := by
  cases e <;> simp only [Expr.clean, Bool.and_eq_true] at he <;> simp only [Expr.eval]
  · exact h _ he
  · rw [h _ he.1, h _ he.2]
  · rw [h _ he.1.1, h _ he.1.2, h _ he.2]
  · rw [h _ he]
  · rw [h _ he]

theorem input_self (i : Str) (s : Str) (env : Env) : Env.input ((i, .str s) :: env) i = s := by
  simp [Env.input, get_self]

theorem input_skip {x i : Str} (h : x ≠ i) (v : Val) (env : Env) : Env.input ((x, v) :: env) i = env.input i := by
  simp [Env.input, get_cons, h]

theorem eval_wrap (X : Ctx) (p : Option Str) (c : Code) (env : Env) (r : P Char Val)
    (h : ∀ env', (∀ e, Same e env → Same e env') → c.eval X env' = r (env'.input c!"$i")) :
    (wrap p c).eval X env = r (env.input (p.getD c!"$i")) := by
  cases p with
  | none => exact h env fun _ h => h
  | some i =>
    simp only [wrap, Code.eval, Option.getD_some]
    rw [h _ fun e h => h.hide (by decide) _, input_self]

theorem byteCond_holds (b : UInt8) : identCond.holds b = Byte.isIdentByte b := by
  simp only [identCond, ByteCond.holds, Byte.isIdentByte]
  have a1 : '_'.toNat = 0x5F := rfl
  have a2 : '-'.toNat = 0x2D := rfl
  rw [a1, a2]
  simp only [Bool.or_assoc]

theorem eval_identTag (X : Ctx) (t i : Str) (h1 : i ≠ c!"i") (h2 : i ≠ c!"o") (env : Env) :
    (Code.bind (.prim (.tag t) i) c!"i" c!"o" (.unless c!"i" c!"o" c!"i" identCond i)).eval X env =
      Nom.map Val.str (Verif.identTag t) (env.input i) := by
  simp only [Code.eval, Prim.run, Nom.map, seq, Verif.identTag, ret]
  cases tag t (env.input i) with
  | err e => rfl
  | diverge => rfl
  | ok r v =>
    simp only
    rw [input_skip (by decide), input_self, get_self, input_skip h2.symm, input_skip h1.symm]
    cases r with
    | nil => rfl
    | cons c r =>
      obtain ⟨b, bs, e, hb⟩ := isIdentByte_utf8 c
      simp only [firstByte, e, List.head?_cons, byteCond_holds, hb]
      split <;> rfl

theorem eval_lower (X : Ctx) (hsp : X.call c!"sp" = X.parse (.path0 c!"sp")) (m : Mac) :
    ∀ (p : Option Str) (env env' : Env), m.clean p = true → Same env env' →
      (m.lower p).eval X env' = m.run X.parse env (env'.input (p.getD c!"$i")) := by
  have inner (m : Mac) (ih : ∀ (p : Option Str) (env env' : Env), m.clean p = true → Same env env' →
      (m.lower p).eval X env' = m.run X.parse env (env'.input (p.getD c!"$i"))) {env env' : Env} (p : Option Str)
      (hp : p.getD c!"$i" = c!"$i") (hc : m.clean p = true) (h : Same env env') :
      (fun s => (m.lower p).eval X ((c!"$i", .str s) :: env')) = m.run X.parse env := by
    funext s
    rw [ih p env _ hc (h.hide (by decide) _), hp, input_self]
  induction m with
  | weedle t => intro p env env' hc h; rfl
  | sp => intro p env env' hc h; simp only [Mac.lower, Code.eval, Mac.run, hsp]
  | bind x m k ihm ihk =>
    intro p env env' hc h
    simp only [Mac.clean, Bool.and_eq_true] at hc
    refine eval_wrap X p _ env' _ fun env'' hs => ?_
    simp only [Code.eval, Mac.run, seq]
    rw [ihm (some c!"$i") env env'' hc.1.2 (hs _ h)]
    simp only [Option.getD_some]
    cases m.run X.parse env (env''.input c!"$i") with
    | err e => rfl
    | diverge => rfl
    | ok r v =>
      cases x with
      | none =>
        simp only [Option.getD_none]
        rw [ihk none env _ hc.2 (((hs _ h).hide (by decide) _).hide (by decide) _), Option.getD_none,
          input_skip (by decide), input_self]
      | some x =>
        simp only [Option.getD_some]
        rw [ihk none ((x, v) :: env) _ hc.2 (((hs _ h).hide (by decide) _).push _ _), Option.getD_none,
          input_skip (clean_ne hc.1.1 (by decide)).symm, input_self]
  | ret e =>
    intro p env env' hc h
    refine eval_wrap X p _ env' _ fun env'' hs => ?_
    simp only [Code.eval, Out.eval, Mac.run, ret, (hs _ h).expr hc]
  | alt m k ihm ihk =>
    intro p env env' hc h
    simp only [Mac.clean, Bool.and_eq_true] at hc
    refine eval_wrap X p _ env' _ fun env'' hs => ?_
    simp only [Code.eval, Mac.run, inner m ihm _ rfl hc.1 (hs _ h), inner k ihk _ rfl hc.2 (hs _ h)]
  | altEnd => intro p env env' hc h; exact eval_wrap X p _ env' _ fun env'' hs => rfl
  | map m x e ih =>
    intro p env env' hc h
    simp only [Mac.clean, Bool.and_eq_true] at hc
    refine eval_wrap X p _ env' _ fun env'' hs => ?_
    simp only [Code.eval, Mac.run, inner m ih _ rfl hc.1.1 (hs _ h), fun v => ((hs _ h).push x v).expr hc.2]
  | opt m ih =>
    intro p env env' hc h
    refine eval_wrap X p _ env' _ fun env'' hs => ?_
    simp only [Code.eval, Mac.run, inner m ih _ rfl hc (hs _ h)]
  | many0 m ih =>
    intro p env env' hc h
    refine eval_wrap X p _ env' _ fun env'' hs => ?_
    simp only [Code.eval, Mac.run, inner m ih _ rfl hc (hs _ h)]
  | recognize m ih =>
    intro p env env' hc h
    refine eval_wrap X p _ env' _ fun env'' hs => ?_
    simp only [Code.eval, Mac.run, inner m ih _ rfl hc (hs _ h)]
  | separatedList m k ihm ihk =>
    intro p env env' hc h
    simp only [Mac.clean, Bool.and_eq_true] at hc
    refine eval_wrap X p _ env' _ fun env'' hs => ?_
    simp only [Code.eval, Mac.run, inner m ihm _ rfl hc.1 (hs _ h), inner k ihk _ rfl hc.2 (hs _ h)]
  | separatedNonemptyList m k ihm ihk =>
    intro p env env' hc h
    simp only [Mac.clean, Bool.and_eq_true] at hc
    refine eval_wrap X p _ env' _ fun env'' hs => ?_
    simp only [Code.eval, Mac.run, inner m ihm _ rfl hc.1 (hs _ h), inner k ihk _ rfl hc.2 (hs _ h)]
  | terminated m k ihm ihk =>
    intro p env env' hc h
    simp only [Mac.clean, Bool.and_eq_true] at hc
    refine eval_wrap X p _ env' _ fun env'' hs => ?_
    simp only [Code.eval, Mac.run, inner m ihm _ rfl hc.1 (hs _ h), inner k ihk _ rfl hc.2 (hs _ h)]
  | condSome x m ih =>
    intro p env env' hc h
    simp only [Mac.clean, Bool.and_eq_true] at hc
    refine eval_wrap X p _ env' _ fun env'' hs => ?_
    simp only [Code.eval, Mac.run, inner m ih _ rfl hc.2 (hs _ h), hs _ h _ hc.1]
  | identTag t =>
    intro p env env' hc h
    simp only [Mac.clean, Bool.and_eq_true, bne_iff_ne, ne_eq] at hc
    exact eval_identTag X t _ hc.1 hc.2 env'
  | tag t => intro p env env' hc h; rfl
  | takeUntil t => intro p env env' hc h; rfl
  | takeWhile c => intro p env env' hc h; rfl
  | takeWhile1 c => intro p env env' hc h; rfl
  | char c => intro p env env' hc h; rfl
  | oneOf cs => intro p env env' hc h; rfl

/-! ## Declarations -/

/-- The parser of a struct, `/repo/src/macros.rs:268-313`: `ns` are the fields that are done. -/
def lowerFields : List Field → Str → List Str → Code
  | [], i, ns => .ok i (.self ns)
  | ⟨x, t, .weedle⟩ :: fs, i, ns => .bind (.call t i) c!"i" x (lowerFields fs c!"i" (ns ++ [x]))
  | ⟨x, _, .mac m⟩ :: fs, i, ns => .bind (m.lower (some i)) c!"i" x (lowerFields fs c!"i" (ns ++ [x]))
  | ⟨x, _, .marker⟩ :: fs, i, ns => .letDefault x (lowerFields fs i (ns ++ [x]))

/-- The alternatives of the parser of an enum. -/
def lowerVariants : List (Str × RTy) → Code
  | [] => .altEnd
  | (_, t) :: vs => .alt (.into t (.call t c!"$i")) (lowerVariants vs)

/-- The items for a declaration. -/
def Decl.lower : Decl → List Item
  | .struct n ps fs => [.struct n ps (fs.map fun f => (f.name, f.type)), .parse n ps c!"input" (lowerFields fs c!"input" [])]
  | .newtype n m =>
    [.parse n [] c!"input" (.bind (m.lower (some c!"input")) c!"i" c!"inner" (.ok c!"i" (.newtype n c!"inner")))]
  | .enum n vs =>
    .enum n vs :: (vs.map fun (v, t) => .from t n v) ++ [.parse n [] c!"input" (.at c!"input" (lowerVariants vs))]
  | .alias n t => [.alias n t]
  | .fn n ps m =>
    if n = c!"sp" then [.fn n c!"input" (m.lower (some c!"input"))]
    else [.parse n ps c!"input" (m.lower (some c!"input"))]

/-- The fields have different names, which are not reserved. -/
def cleanFields : List Field → Str → Bool
  | [], _ => true
  | f :: fs, i =>
    clean f.name && decide (f.name ∉ fs.map Field.name) &&
      match f.init with
      | .weedle => cleanFields fs c!"i"
      | .mac m => m.clean (some i) && cleanFields fs c!"i"
      | .marker => cleanFields fs i

def Decl.clean : Decl → Bool
  | .struct _ ps fs => decide (c!"sp" ∉ ps) && cleanFields fs c!"input"
  | .newtype _ m => m.clean (some c!"input")
  | .enum _ vs => decide (vs.map Prod.snd).Nodup
  | .alias _ _ => true
  | .fn n ps m => (n != c!"sp" || ps.isEmpty) && decide (c!"sp" ∉ ps) && m.clean (some c!"input")

theorem get_append {x : Str} {env : Env} (hx : x ∉ env.map Prod.fst) (v : Val) (y : Str) :
    Env.get (env ++ [(x, v)]) y = if x = y then v else env.get y := by
  induction env with
  | nil => rfl
  | cons p env ih =>
    obtain ⟨z, w⟩ := p
    simp only [List.map_cons, List.mem_cons, not_or] at hx
    simp only [List.cons_append, get_cons, ih hx.2]
    by_cases h : z = y
    · have : ¬ x = y := fun e => hx.1 (e.trans h.symm)
      simp [h, this]
    · simp [h]

theorem Same.append {env env' : Env} (h : Same env env') {x : Str} (hx : x ∉ env.map Prod.fst) (v : Val) :
    Same (env ++ [(x, v)]) ((x, v) :: env') := fun y hy => by
  rw [get_append hx, get_cons, h y hy]

theorem struct_env {env env' : Env} (h : Same env env') (hc : ∀ x ∈ env.map Prod.fst, clean x = true)
    (hn : (env.map Prod.fst).Nodup) : ((env.map Prod.fst).map fun x => (x, env'.get x)) = env := by
  have : ∀ l : Env, (l.map Prod.fst).Nodup → ((l.map Prod.fst).map fun x => (x, l.get x)) = l := by
    intro l hl
    induction l with
    | nil => rfl
    | cons p l ih =>
      obtain ⟨x, v⟩ := p
      simp only [List.map_cons, List.nodup_cons] at hl
      simp only [List.map_cons, get_self, List.cons.injEq, true_and]
      conv => rhs; rw [← ih hl.2]
      refine List.map_congr_left fun y hy => ?_
      rw [get_cons, if_neg fun (e : x = y) => hl.1 (e ▸ hy)]
  conv => rhs; rw [← this env hn]
  exact List.map_congr_left fun x hx => by rw [h x (hc x hx)]

theorem eval_fields (X : Ctx) (hsp : X.call c!"sp" = X.parse (.path0 c!"sp")) (d : RTy → Val) (fs : List Field) :
    ∀ (i : Str) (env env' : Env), (i = c!"input" ∨ i = c!"i") → cleanFields fs i = true → Same env env' →
      (∀ x ∈ env.map Prod.fst, clean x = true) → (env.map Prod.fst).Nodup →
      (∀ f ∈ fs, f.name ∉ env.map Prod.fst) → (∀ f ∈ fs, X.default f.name = d f.type) →
      (lowerFields fs i (env.map Prod.fst)).eval X env' = fields X.parse d X.self fs env (env'.input i) := by
  induction fs with
  | nil =>
    intro i env env' hi hc h hk hn _ _
    simp only [lowerFields, Code.eval, Out.eval, fields, ret, struct_env h hk hn]
  | cons f fs ih =>
    intro i env env' hi hc h hk hn hf hd
    obtain ⟨x, t, f⟩ := f
    have hx : x ∉ env.map Prod.fst := hf ⟨x, t, f⟩ (by simp)
    simp only [cleanFields, Bool.and_eq_true, decide_eq_true_eq] at hc
    obtain ⟨⟨hcx, hxs⟩, hc⟩ := hc
    have step (v : Val) : (∀ y ∈ (env ++ [(x, v)]).map Prod.fst, clean y = true) ∧
        ((env ++ [(x, v)]).map Prod.fst).Nodup ∧ (∀ f ∈ fs, f.name ∉ (env ++ [(x, v)]).map Prod.fst) := by
      refine ⟨?_, ?_, ?_⟩
      · intro y hy
        simp only [List.map_append, List.map_cons, List.map_nil, List.mem_append, List.mem_singleton] at hy
        rcases hy with hy | rfl
        · exact hk y hy
        · exact hcx
      · simp only [List.map_append, List.map_cons, List.map_nil]
        rw [List.nodup_append]
        refine ⟨hn, by simp, fun a ha b hb e => ?_⟩
        rw [List.mem_singleton.mp hb] at e
        exact hx (e ▸ ha)
      · intro g hg hy
        simp only [List.map_append, List.map_cons, List.map_nil, List.mem_append, List.mem_singleton] at hy
        rcases hy with hy | hy
        · exact hf g (by simp [hg]) hy
        · exact hxs (hy ▸ List.mem_map_of_mem hg)
    have hd' : ∀ f ∈ fs, X.default f.name = d f.type := fun g hg => hd g (by simp [hg])
    have keys (v : Val) : env.map Prod.fst ++ [x] = (env ++ [(x, v)]).map Prod.fst := by simp
    cases f with
    | weedle =>
      simp only [lowerFields, Code.eval, fields, seq]
      cases X.parse t (env'.input i) with
      | err e => rfl
      | diverge => rfl
      | ok r v =>
        simp only
        rw [keys v, ih _ _ _ (.inr rfl) hc ((h.hide (by decide) _).append hx v) (step v).1 (step v).2.1 (step v).2.2 hd',
          input_skip (clean_ne hcx (by decide)).symm, input_self]
    | mac m =>
      simp only [Bool.and_eq_true] at hc
      simp only [lowerFields, Code.eval, fields, seq]
      rw [eval_lower X hsp m (some i) env env' hc.1 h]
      simp only [Option.getD_some]
      cases m.run X.parse env (env'.input i) with
      | err e => rfl
      | diverge => rfl
      | ok r v =>
        simp only
        rw [keys v, ih _ _ _ (.inr rfl) hc.2 ((h.hide (by decide) _).append hx v) (step v).1 (step v).2.1 (step v).2.2 hd',
          input_skip (clean_ne hcx (by decide)).symm, input_self]
    | marker =>
      simp only [lowerFields, Code.eval, fields]
      rw [keys (X.default x), ih _ _ _ hi hc (h.append hx _) (step _).1 (step _).2.1 (step _).2.2 hd', hd ⟨x, t, .marker⟩ (by simp)]
      have : x ≠ i := by
        rcases hi with rfl | rfl
        · exact (clean_ne hcx (by decide)).symm
        · exact (clean_ne hcx (by decide)).symm
      rw [input_skip this]

theorem eval_variants (X : Ctx) (n : Str) (vs : List (Str × RTy)) (h : ∀ p ∈ vs, X.convert p.2 = Val.variant n p.1) :
    ∀ env : Env, (lowerVariants vs).eval X env = variants X.parse n vs (env.input c!"$i") := by
  induction vs with
  | nil => intro env; rfl
  | cons p vs ih =>
    intro env
    obtain ⟨x, t⟩ := p
    have e (s : Str) : (lowerVariants vs).eval X ((c!"$i", .str s) :: env) = variants X.parse n vs s := by
      rw [ih fun p hp => h p (by simp [hp]), input_self]
    have h1 := h (x, t) (by simp)
    simp only at h1
    simp only [lowerVariants, Code.eval, variants, e, h1, input_self]

/-! ## All items -/

/-- Items that are not executed. -/
def Item.inert : Item → Bool
  | .entry _ _ | .tuple _ _ _ | .unit _ | .derive _ _ => true
  | _ => false

/-- The items are those of the declarations, and perhaps the function `weedle::parse`. -/
structure Expansion (ds : List Decl) (is : List Item) : Prop where
  names : (ds.map Decl.name).Nodup
  clean : ∀ d ∈ ds, d.clean = true
  has : ∀ d ∈ ds, ∀ it ∈ d.lower, it ∈ is
  only : ∀ it ∈ is, (∃ d ∈ ds, it ∈ d.lower) ∨ it.inert = true

theorem eq_of_name {ds : List Decl} (hn : (ds.map Decl.name).Nodup) {d d' : Decl} (h : d ∈ ds) (h' : d' ∈ ds)
    (e : d.name = d'.name) : d = d' := by
  induction ds with
  | nil => simp at h
  | cons x ds ih =>
    simp only [List.map_cons, List.nodup_cons] at hn
    simp only [List.mem_cons] at h h'
    rcases h with rfl | h <;> rcases h' with rfl | h'
    · rfl
    · exact absurd (e ▸ List.mem_map_of_mem h') hn.1
    · exact absurd (e ▸ List.mem_map_of_mem h) hn.1
    · exact ih hn.2 h h'

theorem find_of_mem {ds : List Decl} (hn : (ds.map Decl.name).Nodup) {d : Decl} (h : d ∈ ds) : find ds d.name = some d := by
  cases e : find ds d.name with
  | none =>
    have := List.find?_eq_none.mp e d h
    simp at this
  | some d' =>
    have h1 := List.mem_of_find?_eq_some e
    have h2 := List.find?_some e
    simp only [decide_eq_true_eq] at h2
    rw [eq_of_name hn h1 h h2]

/-- The item that defines the parser. -/
def Decl.main : Decl → Item
  | .struct n ps fs => .parse n ps c!"input" (lowerFields fs c!"input" [])
  | .newtype n m =>
    .parse n [] c!"input" (.bind (m.lower (some c!"input")) c!"i" c!"inner" (.ok c!"i" (.newtype n c!"inner")))
  | .enum n vs => .parse n [] c!"input" (.at c!"input" (lowerVariants vs))
  | .alias n t => .alias n t
  | .fn n ps m =>
    if n = c!"sp" then .fn n c!"input" (m.lower (some c!"input"))
    else .parse n ps c!"input" (m.lower (some c!"input"))

theorem main_mem (d : Decl) : d.main ∈ d.lower := by
  cases d with
  | fn n ps m =>
    simp only [Decl.main, Decl.lower]
    split <;> simp
  | _ => simp [Decl.main, Decl.lower]

theorem main_defines (d : Decl) : d.main.defines = some d.name := by
  cases d with
  | fn n ps m =>
    simp only [Decl.main]
    split <;> simp [Item.defines, Decl.name]
  | _ => simp [Decl.main, Item.defines, Decl.name]

theorem eq_main {d : Decl} {it : Item} (h : it ∈ d.lower) {n : Str} (e : it.defines = some n) : it = d.main := by
  cases d with
  | fn m ps c =>
    simp only [Decl.lower] at h
    simp only [Decl.main]
    split at h <;> rename_i hm <;> simp only [List.mem_singleton] at h <;> simp [hm, h]
  | struct m ps fs =>
    simp only [Decl.lower, List.mem_cons, List.not_mem_nil, or_false] at h
    rcases h with rfl | rfl
    · simp [Item.defines] at e
    · rfl
  | enum m vs =>
    simp only [Decl.lower, List.mem_append, List.mem_cons, List.mem_map, List.not_mem_nil, or_false] at h
    rcases h with (rfl | ⟨p, _, rfl⟩) | rfl
    · simp [Item.defines] at e
    · simp [Item.defines] at e
    · rfl
  | newtype m c => simpa [Decl.lower, Decl.main] using h
  | alias m t => simpa [Decl.lower, Decl.main] using h

theorem Expansion.implOf_mem {ds : List Decl} {is : List Item} (H : Expansion ds is) {d : Decl} (h : d ∈ ds) :
    implOf is d.name = some d.main := by
  cases e : implOf is d.name with
  | none =>
    have := List.find?_eq_none.mp e d.main (H.has d h _ (main_mem d))
    simp [main_defines] at this
  | some it =>
    have h1 := List.mem_of_find?_eq_some e
    have h2 := List.find?_some e
    simp only [decide_eq_true_eq] at h2
    rcases H.only it h1 with ⟨d', hd', h3⟩ | h3
    · have h4 := eq_main h3 h2
      have h5 : d'.name = d.name := by
        rw [h4, main_defines] at h2
        exact Option.some.inj h2
      rw [h4, eq_of_name H.names hd' h h5]
    · cases it <;> simp [Item.defines, Item.inert] at h2 h3

theorem Expansion.implOf_none {ds : List Decl} {is : List Item} (H : Expansion ds is) {n : Str} (h : find ds n = none) :
    implOf is n = none := by
  refine List.find?_eq_none.mpr fun it hit e => ?_
  simp only [decide_eq_true_eq] at e
  rcases H.only it hit with ⟨d, hd, h3⟩ | h3
  · have h4 := eq_main h3 e
    rw [h4, main_defines] at e
    have := List.find?_eq_none.mp h d hd
    simp [Option.some.inj e] at this
  · cases it <;> simp [Item.defines, Item.inert] at e h3

theorem fieldsOf_mem {is : List Item} {n : Str} {ps : List Str} {fs : List (Str × RTy)} (h : Item.struct n ps fs ∈ is) :
    ∃ ps', Item.struct n ps' (fieldsOf n is) ∈ is := by
  induction is with
  | nil => simp at h
  | cons it is ih =>
    simp only [List.mem_cons] at h
    cases it with
    | struct m ps' fs' =>
      by_cases e : m = n
      · subst e
        exact ⟨ps', by simp [fieldsOf]⟩
      · rcases h with h | h
        · simp only [Item.struct.injEq] at h
          exact absurd h.1.symm e
        · obtain ⟨q, hq⟩ := ih h
          exact ⟨q, by simp [fieldsOf, e, hq]⟩
    | _ =>
      rcases h with h | h
      · cases h
      · obtain ⟨q, hq⟩ := ih h
        exact ⟨q, by simp [fieldsOf, hq]⟩

theorem fromOf_mem {is : List Item} {t : RTy} {n v : Str} (h : Item.from t n v ∈ is) :
    ∃ v', fromOf t n is = some v' ∧ Item.from t n v' ∈ is := by
  induction is with
  | nil => simp at h
  | cons it is ih =>
    simp only [List.mem_cons] at h
    cases it with
    | «from» u m w =>
      by_cases e : u = t ∧ m = n
      · obtain ⟨rfl, rfl⟩ := e
        exact ⟨w, by simp [fromOf], by simp⟩
      · rcases h with h | h
        · simp only [Item.from.injEq] at h
          exact absurd ⟨h.1.symm, h.2.1.symm⟩ e
        · obtain ⟨q, hq, hq'⟩ := ih h
          exact ⟨q, by simp only [fromOf, if_neg e, hq], by simp [hq']⟩
    | _ =>
      rcases h with h | h
      · cases h
      · obtain ⟨q, hq, hq'⟩ := ih h
        exact ⟨q, by simp only [fromOf, hq], by simp [hq']⟩

theorem Expansion.fields {ds : List Decl} {is : List Item} (H : Expansion ds is) {n : Str} {ps : List Str} {fs : List Field}
    (h : Decl.struct n ps fs ∈ ds) : fieldsOf n is = fs.map fun f => (f.name, f.type) := by
  have h1 : Item.struct n ps (fs.map fun f => (f.name, f.type)) ∈ is := H.has _ h _ (by simp [Decl.lower])
  obtain ⟨ps', h2⟩ := fieldsOf_mem h1
  rcases H.only _ h2 with ⟨d, hd, h3⟩ | e
  · cases d with
    | struct m qs gs =>
      simp only [Decl.lower, List.mem_cons, Item.struct.injEq, List.not_mem_nil, or_false, reduceCtorEq] at h3
      have e := eq_of_name H.names hd h (by simp [Decl.name, h3.1])
      cases e
      exact h3.2.2
    | newtype => simp [Decl.lower] at h3
    | «enum» => simp [Decl.lower] at h3
    | «alias» => simp [Decl.lower] at h3
    | fn =>
      simp only [Decl.lower] at h3
      split at h3 <;> simp at h3
  · cases e

theorem nodup_snd {vs : List (Str × RTy)} (h : (vs.map Prod.snd).Nodup) {p q : Str × RTy} (hp : p ∈ vs) (hq : q ∈ vs)
    (e : p.2 = q.2) : p = q := by
  induction vs with
  | nil => simp at hp
  | cons x vs ih =>
    simp only [List.map_cons, List.nodup_cons] at h
    simp only [List.mem_cons] at hp hq
    rcases hp with rfl | hp <;> rcases hq with rfl | hq
    · rfl
    · exact absurd (e ▸ List.mem_map_of_mem hq) h.1
    · exact absurd (e ▸ List.mem_map_of_mem hp) h.1
    · exact ih h.2 hp hq

theorem Expansion.from {ds : List Decl} {is : List Item} (H : Expansion ds is) {n : Str} {vs : List (Str × RTy)}
    (h : Decl.enum n vs ∈ ds) {p : Str × RTy} (hp : p ∈ vs) : fromOf p.2 n is = some p.1 := by
  have h1 : Item.from p.2 n p.1 ∈ is := H.has _ h _ (by
    simp only [Decl.lower, List.mem_append, List.mem_cons, List.mem_map]
    exact .inl (.inr ⟨p, hp, rfl⟩))
  obtain ⟨v, h2, h3⟩ := fromOf_mem h1
  rw [h2]
  rcases H.only _ h3 with ⟨d, hd, h3⟩ | e
  · cases d with
    | «enum» m ws =>
      simp only [Decl.lower, List.mem_append, List.mem_cons, List.mem_map, List.not_mem_nil, reduceCtorEq, or_false, false_or] at h3
      obtain ⟨q, hq, e⟩ := h3
      simp only [Item.from.injEq] at e
      have e' := eq_of_name H.names hd h (by simp [Decl.name, e.2.1])
      cases e'
      have hc := H.clean _ h
      simp only [Decl.clean, decide_eq_true_eq] at hc
      rw [← e.2.2, nodup_snd hc hq hp e.1]
    | struct => simp [Decl.lower] at h3
    | newtype => simp [Decl.lower] at h3
    | «alias» => simp [Decl.lower] at h3
    | fn =>
      simp only [Decl.lower] at h3
      split at h3 <;> simp at h3
  · cases e

theorem subst_none (t : RTy) (args : List RTy) : t.subst (assign [] args) = t := by
  have : ∀ x, assign [] args x = none := fun x => by simp [assign]
  induction t <;> simp_all [RTy.subst]

theorem assign_none {ps : List Str} {x : Str} (h : x ∉ ps) (args : List RTy) : assign ps args x = none := by
  induction ps generalizing args with
  | nil => simp [assign]
  | cons p ps ih =>
    simp only [List.mem_cons, not_or] at h
    cases args with
    | nil => simp [assign]
    | cons a args => simp [assign, Ne.symm h.1, ih h.2]

theorem same_input (s : Str) : Same [] [(c!"input", .str s)] := fun x hx => by
  rw [get_cons, if_neg (clean_ne hx (by decide))]

theorem lookup_field {fs : List Field} {i : Str} (hc : cleanFields fs i = true) {f : Field} (hf : f ∈ fs) :
    lookup f.name (fs.map fun f => (f.name, f.type)) = some f.type := by
  induction fs generalizing i with
  | nil => simp at hf
  | cons g fs ih =>
    simp only [cleanFields, Bool.and_eq_true, decide_eq_true_eq] at hc
    simp only [List.mem_cons] at hf
    simp only [List.map_cons]
    rcases hf with rfl | hf
    · simp [lookup]
    · have : g.name ≠ f.name := fun e => hc.1.2 (e ▸ List.mem_map_of_mem hf)
      have hc' : ∃ j, cleanFields fs j = true := by
        have := hc.2
        split at this
        · exact ⟨_, this⟩
        · simp only [Bool.and_eq_true] at this
          exact ⟨_, this.2⟩
        · exact ⟨_, this⟩
      obtain ⟨j, hj⟩ := hc'
      simp [lookup, this, ih hj hf]

/-- The items mean what the declarations mean. -/
theorem run_eq {ds : List Decl} {is : List Item} (H : Expansion ds is) :
    ∀ (n : Nat) (T : RTy), run is n T = parse ds n T := by
  intro n
  induction n with
  | zero => intro T; rfl
  | succ n ih =>
    intro T
    cases e : find ds T.name with
    | none => simp only [run, parse, H.implOf_none e, e]
    | some d =>
      have hd : d ∈ ds := List.mem_of_find?_eq_some e
      have hT : d.name = T.name := by simpa using List.find?_some e
      have hi := H.implOf_mem hd
      rw [hT] at hi
      have hc := H.clean d hd
      have hp : run is n = parse ds n := funext ih
      have sp {ps : List Str} (h : c!"sp" ∉ ps) :
          parse ds n ((RTy.path0 c!"sp").subst (assign ps T.args)) = parse ds n (.path0 c!"sp") := by
        simp [RTy.subst, assign_none h]
      simp only [run, parse, hi, e, hp]
      cases d with
      | struct m ps fs =>
        simp only [Decl.clean, Bool.and_eq_true, decide_eq_true_eq] at hc
        simp only [Decl.main, Decl.parser]
        funext s
        refine (eval_fields _ (sp hc.1).symm (fun t => marker (t.subst (assign ps T.args))) fs c!"input" [] _ (.inl rfl) hc.2
          (same_input s) (by simp) (by simp) (by simp) ?_).trans ?_
        · intro f hf
          simp only [H.fields hd, lookup_field hc.2 hf]
        · rw [input_self]
      | newtype m c =>
        simp only [Decl.clean] at hc
        simp only [Decl.main, Decl.parser]
        funext s
        simp only [Code.eval, Nom.map, seq, ret]
        rw [eval_lower _ (sp (ps := []) (by simp)).symm c (some c!"input") [] _ hc (same_input s), Option.getD_some, input_self]
        simp only [subst_none]
        cases c.run (parse ds n) [] s with
        | err e => rfl
        | diverge => rfl
        | ok r v => simp [Out.eval, input_skip, input_self, get_self]
      | «enum» m vs =>
        simp only [Decl.main, Decl.parser]
        funext s
        simp only [Code.eval]
        rw [eval_variants _ m vs, input_self, input_self]
        · simp only [subst_none]
        · intro p hp
          funext v
          simp only [H.from hd hp]
      | «alias» m t => rfl
      | fn m ps c =>
        simp only [Decl.clean, Bool.and_eq_true, Bool.or_eq_true, bne_iff_ne, ne_eq, List.isEmpty_iff, decide_eq_true_eq] at hc
        simp only [Decl.main, Decl.parser]
        by_cases hm : m = c!"sp"
        · have hps : ps = [] := by simpa [hm] using hc.1.1
          subst hps
          simp only [if_pos hm]
          funext s
          rw [eval_lower _ rfl c (some c!"input") [] _ hc.2 (same_input s), Option.getD_some, input_self]
          simp only [subst_none]
        · simp only [if_neg hm]
          funext s
          rw [eval_lower _ (sp hc.1.2).symm c (some c!"input") [] _ hc.2 (same_input s), Option.getD_some, input_self]

end Verif.Source
