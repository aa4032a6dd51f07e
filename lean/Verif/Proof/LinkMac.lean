import Verif.Proof.Link
import Verif.Proof.RecodeMac

/-! # The parsers of the source on texts that are alike -/

namespace Verif.Links
open Nom Spec Source

variable {Q : ItemKind → Str → Str → Prop} {R : Str → Str → Prop}

/-! ## Values -/

theorem likes_each {vs vs' : List Val} (h : Each (Like Q) vs vs') : Likes Q vs vs' := by
  induction h with
  | nil => exact .nil
  | cons h _ ih => exact .cons h ih

theorem like_option {v v' : Option Val} (h : Opt (Like Q) v v') : Like Q (Val.ofOption v) (Val.ofOption v') := by
  cases h with
  | none => exact .none
  | some h => exact .some h

mutual

theorem like_refl : ∀ v : Val, Like Q v v
  | .unit => .unit
  | .bool _ => .bool
  | .char _ => .char
  | .str _ => .str
  | .token _ => .token
  | .none => .none
  | .some v => .some (like_refl v)
  | .box v => .box (like_refl v)
  | .newtype _ v => .newtype (like_refl v)
  | .variant _ _ v => .variant (like_refl v)
  | .pair a b => .pair (like_refl a) (like_refl b)
  | .triple a b c => .triple (like_refl a) (like_refl b) (like_refl c)
  | .list vs => .list (likes_refl vs)
  | .struct _ fs => .struct (likeFields_refl fs)

theorem likes_refl : ∀ vs : List Val, Likes Q vs vs
  | [] => .nil
  | v :: vs => .cons (like_refl v) (likes_refl vs)

theorem likeFields_refl : ∀ fs : List (Str × Val), LikeFields Q fs fs
  | [] => .nil
  | (_, v) :: fs => .cons (like_refl v) (likeFields_refl fs)

end

theorem like_get {env env' : Env} (h : LikeFields Q env env') (x : Str) : Like Q (env.get x) (env'.get x) := by
  match h with
  | .nil => exact .unit
  | .cons h1 h2 =>
    simp only [Env.get]
    split
    · exact h1
    · exact like_get h2 x

theorem like_eval {env env' : Env} (h : LikeFields Q env env') (e : Expr) : Like Q (e.eval env) (e.eval env') := by
  cases e with
  | unit => exact .unit
  | bool => exact .bool
  | var x => exact like_get h x
  | pair x y => exact .pair (like_get h x) (like_get h y)
  | triple x y z => exact .triple (like_get h x) (like_get h y) (like_get h z)
  | box x => exact .box (like_get h x)
  | token => exact .token
  | unwrapOrNone x =>
    have h1 := like_get h x
    simp only [Expr.eval]
    generalize env.get x = a at h1
    generalize env'.get x = b at h1
    cases h1 with
    | some h1 => exact h1
    | _ => exact .none

theorem like_isSome {v v' : Val} (h : Like Q v v') : v.isSome = v'.isSome := by
  cases h <;> rfl

theorem like_append {env env' fs fs' : Env} (h : LikeFields Q env env') (h' : LikeFields Q fs fs') :
    LikeFields Q (env ++ fs) (env' ++ fs') := by
  match h with
  | .nil => exact h'
  | .cons h1 h2 => exact .cons h1 (like_append h2 h')

theorem like_marker (T : RTy) : Like Q (marker T) (marker T) := by
  cases T with
  | path0 => exact .token
  | _ => exact .unit

/-! ## Which declarations only put items together -/

def wholeB : RTy → Bool
  | .path0 n => !innerTypes.contains n
  | .path1 n t => !innerTypes.contains n && wholeB t
  | .path2 n t u => !innerTypes.contains n && (wholeB t && wholeB u)
  | .path3 n t u v => !innerTypes.contains n && (wholeB t && (wholeB u && wholeB v))

theorem wholeB_iff {T : RTy} : wholeB T = true ↔ WholeItems T := by
  induction T <;> simp_all [wholeB, WholeItems]

def wholeMac : Mac → Bool
  | .weedle t => wholeB t
  | .ret _ | .altEnd => true
  | .bind _ m k | .alt m k | .separatedList m k | .separatedNonemptyList m k | .terminated m k => wholeMac m && wholeMac k
  | .map m _ _ | .opt m | .many0 m | .condSome _ m => wholeMac m
  | _ => false

theorem whole_subst {σ : Str → Option RTy} (hσ : ∀ x T, σ x = some T → wholeB T = true) {T : RTy} (h : wholeB T = true) :
    wholeB (T.subst σ) = true := by
  induction T with
  | path0 n =>
    simp only [RTy.subst]
    cases e : σ n with
    | none => exact h
    | some T => exact hσ _ _ e
  | path1 n t iht =>
    simp only [wholeB, RTy.subst, Bool.and_eq_true] at h ⊢
    exact ⟨h.1, iht h.2⟩
  | path2 n t u iht ihu =>
    simp only [wholeB, RTy.subst, Bool.and_eq_true] at h ⊢
    exact ⟨h.1, iht h.2.1, ihu h.2.2⟩
  | path3 n t u v iht ihu ihv =>
    simp only [wholeB, RTy.subst, Bool.and_eq_true] at h ⊢
    exact ⟨h.1, iht h.2.1, ihu h.2.2.1, ihv h.2.2.2⟩

theorem whole_assign {ps : List Str} {args : List RTy} (h : ∀ T ∈ args, wholeB T = true) :
    ∀ x T, assign ps args x = some T → wholeB T = true := by
  induction ps generalizing args with
  | nil => intro x T e; simp [assign] at e
  | cons p ps ih =>
    intro x T e
    cases args with
    | nil => simp [assign] at e
    | cons t ts =>
      simp only [assign] at e
      split at e
      · simp at e
        exact e ▸ h t (by simp)
      · exact ih (fun T hT => h T (by simp [hT])) x T e

theorem whole_args {T : RTy} (h : wholeB T = true) : ∀ U ∈ T.args, wholeB U = true := by
  cases T <;> simp_all [wholeB, RTy.args]

theorem whole_name {T : RTy} (h : wholeB T = true) : T.name ∉ innerTypes := by
  cases T <;> simp_all [wholeB, RTy.name]

abbrev LinkV (Q : ItemKind → Str → Str → Prop) (R : Str → Str → Prop) (p q : P Char Val) : Prop := Link R (Like Q) p q

theorem link_mac {w : RTy → P Char Val} (hw : ∀ T, wholeB T = true → LinkV Q R (w T) (w T)) {m : Mac}
    (h : wholeMac m = true) : ∀ env env', LikeFields Q env env' → LinkV Q R (m.run w env) (m.run w env') := by
  induction m with
  | weedle t => exact fun _ _ _ => hw t h
  | bind x m k ih1 ih2 =>
    intro env env' he
    simp [wholeMac] at h
    cases x with
    | none => exact link_seq (ih1 h.1 _ _ he) (fun _ => ih2 h.2 _ _ he) (fun _ => (ih2 h.2 _ _ he).left) fun _ => (ih2 h.2 _ _ he).right
    | some x =>
      exact link_seq (ih1 h.1 _ _ he) (fun hv => ih2 h.2 _ _ (.cons hv he))
        (fun v => (ih2 h.2 _ _ (likeFields_refl ((x, v) :: env))).left) fun v => (ih2 h.2 _ _ (likeFields_refl ((x, v) :: env'))).right
  | ret e => exact fun _ _ he => link_ret (like_eval he e)
  | alt m k ih1 ih2 =>
    intro env env' he
    simp [wholeMac] at h
    exact link_orElse (ih1 h.1 _ _ he) (ih2 h.2 _ _ he)
  | altEnd => exact fun _ _ _ => link_altEnd
  | map m x e ih => exact fun _ _ he => link_map (ih h _ _ he) fun hv => like_eval (.cons hv he) e
  | opt m ih => exact fun _ _ he => link_map (link_opt (ih h _ _ he)) like_option
  | many0 m ih => exact fun _ _ he => link_map (link_many0 (ih h _ _ he)) fun hv => .list (likes_each hv)
  | separatedList m k ih1 ih2 =>
    intro env env' he
    simp [wholeMac] at h
    exact link_map (link_separatedList (ih1 h.1 _ _ he) (ih2 h.2 _ _ he)) fun hv => .list (likes_each hv)
  | separatedNonemptyList m k ih1 ih2 =>
    intro env env' he
    simp [wholeMac] at h
    exact link_map (link_separatedNonemptyList (ih1 h.1 _ _ he) (ih2 h.2 _ _ he)) fun hv => .list (likes_each hv)
  | terminated m k ih1 ih2 =>
    intro env env' he
    simp [wholeMac] at h
    have hk := ih2 h.2 _ _ he
    exact link_seq (ih1 h.1 _ _ he) (fun hv => link_seq hk (fun _ => link_ret hv) (fun _ => suff_ret) fun _ => suff_ret)
      (fun _ => Recodes.suff_seq hk.left fun _ => suff_ret) fun _ => Recodes.suff_seq hk.right fun _ => suff_ret
  | condSome x m ih =>
    intro env env' he
    have : (Env.get env' x).isSome = (Env.get env x).isSome := (like_isSome (like_get he x)).symm
    simp only [LinkV, Mac.run, this]
    exact link_map (link_cond (ih h _ _ he)) like_option
  | _ => simp [wholeMac] at h

def wholeField (x : Field) : Bool :=
  match x.init with
  | .weedle => wholeB x.type
  | .mac m => wholeMac m
  | .marker => true

theorem link_fields {w : RTy → P Char Val} (hw : ∀ T, wholeB T = true → LinkV Q R (w T) (w T)) {d : RTy → Val} {n : Str}
    {fs : List Field} (h : fs.all wholeField = true) :
    ∀ env env', LikeFields Q env env' → LinkV Q R (fields w d n fs env) (fields w d n fs env') := by
  induction fs with
  | nil => exact fun env env' he => link_ret (.struct he)
  | cons x fs ih =>
    intro env env' he
    simp only [List.all_cons, Bool.and_eq_true] at h
    have hr : ∀ env, Suff (fields w d n fs env) := fun env => (ih h.2 env env (likeFields_refl env)).left
    have hs : ∀ {x v v'}, Like Q v v' → LikeFields Q (env ++ [(x, v)]) (env' ++ [(x, v')]) := fun hv =>
      like_append he (.cons hv .nil)
    obtain ⟨x, t, i⟩ := x
    cases i with
    | weedle => exact link_seq (hw t h.1) (fun hv => ih h.2 _ _ (hs hv)) (fun _ => hr _) fun _ => hr _
    | mac m => exact link_seq (link_mac hw h.1 _ _ he) (fun hv => ih h.2 _ _ (hs hv)) (fun _ => hr _) fun _ => hr _
    | marker => exact ih h.2 _ _ (hs (like_refl _))

theorem link_variants {w : RTy → P Char Val} (hw : ∀ T, wholeB T = true → LinkV Q R (w T) (w T)) {n : Str}
    {vs : List (Str × RTy)} (h : vs.all (fun x => wholeB x.2) = true) : LinkV Q R (variants w n vs) (variants w n vs) := by
  induction vs with
  | nil => exact link_altEnd
  | cons x vs ih =>
    obtain ⟨x, t⟩ := x
    simp only [List.all_cons, Bool.and_eq_true] at h
    exact link_orElse (link_map (hw t h.1) .variant) (ih h.2)

/-! ## Declarations -/

def wholeDecl : Decl → Bool
  | .struct _ _ fs => fs.all wholeField
  | .newtype _ m => wholeMac m
  | .enum _ vs => vs.all fun x => wholeB x.2
  | .alias _ t => wholeB t
  | .fn _ _ m => wholeMac m

/-- The declarations of items. -/
def itemDecl : Decl → Bool
  | .newtype n _ => [c!"Identifier", c!"StringLit", c!"FloatValueLit"].contains n
  | .fn _ _ (.bind none (.bind none .sp (.bind _ (.tag _) _)) _) => true
  | .fn _ _ (.bind none (.bind none .sp (.bind _ (.identTag _) _)) _) => true
  | _ => false

/-- The declarations of values, which are read in an order such that they are read to their ends. -/
def valueDecl (d : Decl) : Bool := [c!"DefaultValue", c!"ConstValue"].contains d.name

theorem whole_decls : decls.all (fun d => wholeDecl d || (itemDecl d || (valueDecl d || innerTypes.contains d.name))) = true := by
  decide +kernel

theorem link_decl {w : RTy → P Char Val} (hw : ∀ T, wholeB T = true → LinkV Q R (w T) (w T)) {d : Decl} (h : wholeDecl d = true)
    {args : List RTy} (ha : ∀ T ∈ args, wholeB T = true) : LinkV Q R (d.parser w args) (d.parser w args) := by
  have hw' : ∀ ps T, wholeB T = true → LinkV Q R (w (T.subst (assign ps args))) (w (T.subst (assign ps args))) := fun ps T hT =>
    hw _ (whole_subst (whole_assign ha) hT)
  cases d with
  | struct m ps fs => exact link_fields (hw' ps) h _ _ .nil
  | newtype m k => exact link_map (link_mac hw h _ _ .nil) .newtype
  | enum m vs => exact link_variants hw h
  | «alias» m t => exact hw t h
  | fn m ps k => exact link_mac (hw' ps) h _ _ .nil

end Verif.Links
