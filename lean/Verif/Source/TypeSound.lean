import Verif.Source.Typing
import Verif.Source.Lower

/-!
# Parsers return values of their types

A type checker for declarations, which is shown to be sound. The definitions serve the proof only, they model no code.
-/

namespace Verif.Source
open Nom

/-! ## Parsers all of whose results satisfy a predicate -/

def Yields (p : P Char Val) (Q : Val → Prop) : Prop := ∀ s r v, p s = .ok r v → Q v

section
variable {α β : Type}

theorem seq_inv {p : P Char α} {f : α → P Char β} {s r : Str} {b : β} (h : seq p f s = .ok r b) :
    ∃ m a, p s = .ok m a ∧ f a m = .ok r b := by
  unfold seq at h
  split at h
  · exact ⟨_, _, by assumption, h⟩
  · cases h
  · cases h

theorem map_inv {f : α → β} {p : P Char α} {s r : Str} {b : β} (h : Nom.map f p s = .ok r b) :
    ∃ a, p s = .ok r a ∧ b = f a := by
  obtain ⟨m, a, h1, h2⟩ := seq_inv h
  cases h2
  exact ⟨a, h1, rfl⟩

theorem orElse_inv {p q : P Char α} {s r : Str} {a : α} (h : orElse p q s = .ok r a) : p s = .ok r a ∨ q s = .ok r a := by
  unfold orElse at h
  split at h
  · exact .inr h
  · exact .inl h

theorem consRes_inv {a : α} {x : Res Char (List α)} {r : Str} {as : List α} (h : consRes a x = .ok r as) :
    ∃ as', x = .ok r as' ∧ as = a :: as' := by
  cases x with
  | ok i bs => cases h; exact ⟨_, rfl, rfl⟩
  | err e => cases h
  | diverge => cases h

theorem many0Loop_inv {p : P Char α} {Q : α → Prop} (hp : ∀ s r a, p s = .ok r a → Q a) : ∀ (n : Nat) (s r : Str) (as : List α),
    many0Loop p n s = .ok r as → ∀ a ∈ as, Q a
  | 0, _, _, _, h => by cases h
  | n + 1, s, r, as, h => by
    unfold many0Loop at h
    split at h
    · cases h; simp
    · cases h
    · cases h
    · split at h
      · cases h
      · obtain ⟨bs, h1, rfl⟩ := consRes_inv h
        intro a ha
        rcases List.mem_cons.mp ha with rfl | ha
        · exact hp _ _ _ (by assumption)
        · exact many0Loop_inv hp n _ _ _ h1 a ha

theorem sepLoop_inv {sep : P Char β} {p : P Char α} {Q : α → Prop} (hp : ∀ s r a, p s = .ok r a → Q a) :
    ∀ (n : Nat) (s r : Str) (as : List α), sepLoop sep p n s = .ok r as → ∀ a ∈ as, Q a
  | 0, _, _, _, h => by cases h
  | n + 1, s, r, as, h => by
    unfold sepLoop at h
    split at h
    · cases h; simp
    · cases h
    · cases h
    · split at h
      · cases h
      · split at h
        · cases h; simp
        · cases h
        · cases h
        · split at h
          · cases h
          · obtain ⟨bs, h1, rfl⟩ := consRes_inv h
            intro a ha
            rcases List.mem_cons.mp ha with rfl | ha
            · exact hp _ _ _ (by assumption)
            · exact sepLoop_inv hp n _ _ _ h1 a ha

theorem separatedNonemptyList_inv {sep : P Char β} {p : P Char α} {Q : α → Prop} (hp : ∀ s r a, p s = .ok r a → Q a)
    {s r : Str} {as : List α} (h : separatedNonemptyList sep p s = .ok r as) : ∀ a ∈ as, Q a := by
  unfold separatedNonemptyList at h
  split at h
  · cases h
  · cases h
  · split at h
    · cases h
    · obtain ⟨bs, h1, rfl⟩ := consRes_inv h
      intro a ha
      rcases List.mem_cons.mp ha with rfl | ha
      · exact hp _ _ _ (by assumption)
      · exact sepLoop_inv hp _ _ _ _ h1 a ha

theorem separatedList_inv {sep : P Char β} {p : P Char α} {Q : α → Prop} (hp : ∀ s r a, p s = .ok r a → Q a)
    {s r : Str} {as : List α} (h : separatedList sep p s = .ok r as) : ∀ a ∈ as, Q a := by
  unfold separatedList at h
  split at h
  · cases h; simp
  · cases h
  · cases h
  · split at h
    · cases h
    · obtain ⟨bs, h1, rfl⟩ := consRes_inv h
      intro a ha
      rcases List.mem_cons.mp ha with rfl | ha
      · exact hp _ _ _ (by assumption)
      · exact sepLoop_inv hp _ _ _ _ h1 a ha

theorem opt_inv {p : P Char α} {s r : Str} {x : Option α} (h : Nom.opt p s = .ok r x) :
    x = none ∨ ∃ a, x = some a ∧ p s = .ok r a := by
  unfold Nom.opt at h
  split at h
  · cases h; exact .inr ⟨_, rfl, by assumption⟩
  · cases h; exact .inl rfl
  · cases h
  · cases h

end

/-! ## The checker -/

/-- The number of type arguments. -/
def arity (ds : List Decl) (n : Str) : Option Nat := (find ds n).map fun d => d.params.length

/-- A well-formed type over the parameters `ps`; the separators of lists are unit structs `us`. -/
def okTy (ds : List Decl) (us ps : List Str) : RTy → Bool
  | .path0 n => ps.contains n || (n != c!"sp" && arity ds n == some 0)
  | .path1 n t => arity ds n == some 1 && okTy ds us ps t
  | .path2 n t u => arity ds n == some 2 && okTy ds us ps t && okTy ds us ps u &&
    (n == c!"(,)" || match u with
      | .path0 x => us.contains x && !ps.contains x
      | _ => false)
  | .path3 n t u v => arity ds n == some 3 && okTy ds us ps t && okTy ds us ps u && okTy ds us ps v

/-- The number of type arguments of a type that can be parsed. -/
theorem okTy_arity {ds : List Decl} {us ps : List Str} {t : RTy} (h : okTy ds us ps t = true) :
    (∃ n, t = .path0 n ∧ n ∈ ps) ∨ ∃ d, find ds t.name = some d ∧ d.params.length = t.args.length := by
  have key {n : Str} {k : Nat} (h : arity ds n = some k) : ∃ d, find ds n = some d ∧ d.params.length = k := by
    simpa [arity] using h
  cases t with
  | path0 n =>
    simp only [okTy, Bool.or_eq_true, Bool.and_eq_true, beq_iff_eq, List.contains_iff_mem] at h
    rcases h with h | h
    · exact .inl ⟨n, rfl, h⟩
    · exact .inr (key h.2)
  | path1 n t => simp only [okTy, Bool.and_eq_true, beq_iff_eq] at h; exact .inr (key h.1)
  | path2 n t u => simp only [okTy, Bool.and_eq_true, beq_iff_eq] at h; exact .inr (key h.1.1.1)
  | path3 n t u v => simp only [okTy, Bool.and_eq_true, beq_iff_eq] at h; exact .inr (key h.1.1.1)

/-- The types of variables. -/
abbrev Types := List (Str × RTy)

def Expr.infer (us : List Str) (Γ : Types) : Expr → Option RTy
  | .unit => some (.path0 c!"()")
  | .bool _ => some (.path0 c!"bool")
  | .var x => lookup x Γ
  | .pair x y => do some (.path2 c!"(,)" (← lookup x Γ) (← lookup y Γ))
  | .triple x y z => do some (.path3 c!"(,,)" (← lookup x Γ) (← lookup y Γ) (← lookup z Γ))
  | .box x => do some (.path1 c!"Box" (← lookup x Γ))
  | .unwrapOrNone x =>
    match lookup x Γ with
    | some (.path1 a (.path1 b t)) => if a = c!"Option" ∧ b = c!"Option" then some (.path1 c!"Option" t) else none
    | _ => none
  | .token n => if us.contains n then some (.path0 n) else none

def Mac.infer (ds : List Decl) (us ps : List Str) : Mac → Types → Option RTy
  | .weedle t, _ => if okTy ds us ps t then some t else none
  | .sp, _ => some (.path0 c!"&str")
  | .bind (some x) m k, Γ => do k.infer ds us ps ((x, ← m.infer ds us ps Γ) :: Γ)
  | .bind none _ k, Γ => k.infer ds us ps Γ
  | .ret e, Γ => e.infer us Γ
  | .alt m .altEnd, Γ => m.infer ds us ps Γ
  | .alt m k, Γ => do
    let t ← m.infer ds us ps Γ
    if k.infer ds us ps Γ = some t then some t else none
  | .altEnd, _ => none
  | .map m x e, Γ => do e.infer us ((x, ← m.infer ds us ps Γ) :: Γ)
  | .opt m, Γ => do some (.path1 c!"Option" (← m.infer ds us ps Γ))
  | .many0 m, Γ => do some (.path1 c!"Vec" (← m.infer ds us ps Γ))
  | .separatedList _ m, Γ => do some (.path1 c!"Vec" (← m.infer ds us ps Γ))
  | .separatedNonemptyList _ m, Γ => do some (.path1 c!"Vec" (← m.infer ds us ps Γ))
  | .terminated m _, Γ => m.infer ds us ps Γ
  | .condSome _ m, Γ => do some (.path1 c!"Option" (← m.infer ds us ps Γ))
  | .recognize _, _ | .tag _, _ | .identTag _, _ | .takeUntil _, _ | .takeWhile _, _ | .takeWhile1 _, _ =>
    some (.path0 c!"&str")
  | .char _, _ | .oneOf _, _ => some (.path0 c!"char")

/-- The names that are not replaced. -/
def constants : List Str := [c!"()", c!"&str", c!"char", c!"bool", c!"sp"]

def checkFields (ds : List Decl) (us ps : List Str) : List Field → Types → Bool
  | [], _ => true
  | f :: fs, Γ =>
    (match f.init with
      | .weedle => okTy ds us ps f.type
      | .mac m => m.infer ds us ps Γ == some f.type
      | .marker => match ps with
        | [_, p] => f.type == .path0 p
        | _ => false) && checkFields ds us ps fs (Γ ++ [(f.name, f.type)])

/-- The type `n`, applied to its parameters. -/
def applied (n : Str) : List Str → Option RTy
  | [] => some (.path0 n)
  | [p] => some (.path1 n (.path0 p))
  | [p, q] => some (.path2 n (.path0 p) (.path0 q))
  | [p, q, r] => some (.path3 n (.path0 p) (.path0 q) (.path0 r))
  | _ => none

def Decl.check (ds : List Decl) (us : List Str) (ts : List (Str × RTy)) (d : Decl) : Bool :=
  decide d.params.Nodup && d.params.all (fun p => !constants.contains p && !us.contains p) &&
  match d with
  | .struct n ps fs => n != c!"(,)" && checkFields ds us ps fs []
  | .newtype n m => match m.infer ds us [] [] with
    | some t => ts.contains (n, t)
    | none => false
  | .enum _ vs => vs.all fun v => okTy ds us [] v.2
  | .alias _ t => okTy ds us [] t
  | .fn n ps m => m.infer ds us ps [] == if n = c!"sp" then some (.path0 c!"&str") else applied n ps

/-! ## Substitution -/

theorem assign_some {ps : List Str} {ts : List RTy} {x : Str} (h : x ∈ ps) (e : ps.length = ts.length) :
    ∃ t ∈ ts, assign ps ts x = some t := by
  induction ps generalizing ts with
  | nil => simp at h
  | cons p ps ih =>
    cases ts with
    | nil => simp at e
    | cons t ts =>
      by_cases hp : p = x
      · exact ⟨t, by simp, by simp [assign, hp]⟩
      · have : x ∈ ps := by simpa [Ne.symm hp] using h
        obtain ⟨u, hu, e'⟩ := ih this (by simpa using e)
        exact ⟨u, by simp [hu], by simp [assign, hp, e']⟩

theorem okTy_subst {ds : List Decl} {us ps : List Str} {ts : List RTy} (e : ps.length = ts.length)
    (ht : ∀ t ∈ ts, okTy ds us [] t = true) : ∀ {t : RTy}, okTy ds us ps t = true →
    okTy ds us [] (t.subst (assign ps ts)) = true
  | .path0 n, h => by
    simp only [okTy, Bool.or_eq_true, Bool.and_eq_true, List.contains_iff_mem] at h
    by_cases hn : n ∈ ps
    · obtain ⟨t, h1, h2⟩ := assign_some hn e
      simpa [RTy.subst, h2] using ht t h1
    · have := h.resolve_left hn
      simp [RTy.subst, assign_none hn, okTy] at this ⊢
      exact this
  | .path1 n t, h => by
    simp only [okTy, Bool.and_eq_true] at h
    simp only [RTy.subst, okTy, Bool.and_eq_true]
    exact ⟨h.1, okTy_subst e ht h.2⟩
  | .path2 n t u, h => by
    simp only [okTy, Bool.and_eq_true, Bool.or_eq_true] at h
    simp only [RTy.subst, okTy, Bool.and_eq_true, Bool.or_eq_true]
    refine ⟨⟨⟨h.1.1.1, okTy_subst e ht h.1.1.2⟩, okTy_subst e ht h.1.2⟩, h.2.imp id fun hu => ?_⟩
    cases u with
    | path0 x =>
      simp only [Bool.and_eq_true, Bool.not_eq_true', ← Bool.not_eq_true, List.contains_iff_mem] at hu
      simpa [RTy.subst, assign_none hu.2] using hu.1
    | _ => simp at hu
  | .path3 n t u v, h => by
    simp only [okTy, Bool.and_eq_true] at h
    simp only [RTy.subst, okTy, Bool.and_eq_true]
    exact ⟨⟨⟨h.1.1.1, okTy_subst e ht h.1.1.2⟩, okTy_subst e ht h.1.2⟩, okTy_subst e ht h.2⟩

theorem okTy_args {ds : List Decl} {us : List Str} {t : RTy} (h : okTy ds us [] t = true) :
    ∀ u ∈ t.args, okTy ds us [] u = true := by
  cases t <;> simp only [okTy, Bool.and_eq_true] at h <;> simp [RTy.args, h]

theorem applied_ne {n : Str} {ps : List Str} {T : RTy} (hl : ps.length = T.args.length) : applied n ps ≠ none := by
  match ps with
  | [] | [_] | [_, _] | [_, _, _] => simp [applied]
  | _ :: _ :: _ :: _ :: _ => cases T <;> simp [RTy.args] at hl

theorem applied_subst {n : Str} {ps : List Str} {t T : RTy} (h : applied n ps = some t) (hn : n = T.name)
    (hl : ps.length = T.args.length) (hp : ps.Nodup) : t.subst (assign ps T.args) = T := by
  subst hn
  match ps, T, hl with
  | [], .path0 n, _ => cases h; simp [RTy.subst, assign, RTy.name]
  | [p], .path1 n a, _ => cases h; simp [RTy.subst, assign, RTy.name, RTy.args]
  | [p, q], .path2 n a b, _ =>
    cases h
    have : p ≠ q := by simpa using hp
    simp [RTy.subst, assign, RTy.name, RTy.args, this]
  | [p, q, r], .path3 n a b c, _ =>
    cases h
    have : (p ≠ q ∧ p ≠ r) ∧ q ≠ r := by simpa using hp
    simp [RTy.subst, assign, RTy.name, RTy.args, this]

/-! ## Soundness -/

/-- The variables have values of their types. -/
def Models (is : List Item) (σ : Str → Option RTy) (Γ : Types) (env : Env) : Prop :=
  ∀ x t, lookup x Γ = some t → HasType is (t.subst σ) (env.get x)

theorem Models.nil {is : List Item} {σ : Str → Option RTy} : Models is σ [] [] := by
  intro x t h; cases h

theorem Models.cons {is : List Item} {σ : Str → Option RTy} {Γ : Types} {env : Env} (h : Models is σ Γ env) {x : Str}
    {t : RTy} {v : Val} (hv : HasType is (t.subst σ) v) : Models is σ ((x, t) :: Γ) ((x, v) :: env) := by
  intro y u hy
  simp only [lookup] at hy
  simp only [Env.get]
  split at hy
  · cases hy; simp_all
  · simp_all [h y u]

theorem option_inv {is : List Item} {T : RTy} {v : Val} (h : HasType is (.path1 c!"Option" T) v)
    (hi : ∀ ps fs, .struct c!"Option" ps fs ∉ is) : v = .none ∨ ∃ w, v = .some w ∧ HasType is T w := by
  cases h with
  | none => exact .inl rfl
  | some h => exact .inr ⟨_, rfl, h⟩
  | struct h => exact absurd h (hi _ _)

theorem ofOption_type {is : List Item} {T : RTy} {x : Option Val} (h : ∀ v, x = some v → HasType is T v) :
    HasType is (.path1 c!"Option" T) (.ofOption x) := by
  cases x with
  | none => exact .none
  | some v => exact .some (h v rfl)

/-- What is assumed about the items, and the meaning of parameters. -/
structure Sound (is : List Item) (us : List Str) (σ : Str → Option RTy) : Prop where
  units : ∀ n ∈ us, .unit n ∈ is ∧ σ n = none
  consts : ∀ n ∈ constants, σ n = none
  option : ∀ ps fs, .struct c!"Option" ps fs ∉ is

theorem Expr.infer_sound {is : List Item} {us : List Str} {σ : Str → Option RTy} (hs : Sound is us σ) {Γ : Types} {env : Env}
    (hm : Models is σ Γ env) {e : Expr} {t : RTy} (h : e.infer us Γ = some t) : HasType is (t.subst σ) (e.eval env) := by
  cases e with
  | unit => cases h; simp only [RTy.subst, hs.consts c!"()" (by decide)]; exact .unit
  | bool b => cases h; simp only [RTy.subst, hs.consts c!"bool" (by decide)]; exact .bool b
  | var x => exact hm _ _ h
  | pair x y =>
    simp only [Expr.infer, Option.bind_eq_bind, Option.bind_eq_some_iff] at h
    obtain ⟨a, ha, b, hb, h⟩ := h
    cases h
    exact .pair (hm _ _ ha) (hm _ _ hb)
  | triple x y z =>
    simp only [Expr.infer, Option.bind_eq_bind, Option.bind_eq_some_iff] at h
    obtain ⟨a, ha, b, hb, c, hc, h⟩ := h
    cases h
    exact .triple (hm _ _ ha) (hm _ _ hb) (hm _ _ hc)
  | box x =>
    simp only [Expr.infer, Option.bind_eq_bind, Option.bind_eq_some_iff] at h
    obtain ⟨a, ha, h⟩ := h
    cases h
    exact .box (hm _ _ ha)
  | unwrapOrNone x =>
    simp only [Expr.infer] at h
    split at h
    · rename_i e
      split at h
      · rename_i hab
        obtain ⟨rfl, rfl⟩ := hab
        cases h
        have := hm _ _ e
        rcases option_inv this hs.option with h | ⟨w, h, hw⟩
        · simp only [Expr.eval, h]; exact .none
        · simp only [Expr.eval, h]; exact hw
      · cases h
    · cases h
  | token n =>
    simp only [Expr.infer] at h
    split at h
    · rename_i hn
      cases h
      have := hs.units n (by simpa using hn)
      simp only [RTy.subst, this.2]
      exact .token this.1
    · cases h

theorem Mac.infer_sound {ds : List Decl} {is : List Item} {us ps : List Str} {σ : Str → Option RTy} (hs : Sound is us σ)
    {w : RTy → P Char Val} (hw : ∀ t, okTy ds us ps t = true → Yields (w t) (HasType is (t.subst σ)))
    (hsp : Yields (w (.path0 c!"sp")) (HasType is (.path0 c!"&str"))) (m : Mac) : ∀ {Γ : Types} {env : Env} {t : RTy},
    Models is σ Γ env → m.infer ds us ps Γ = some t → Yields (m.run w env) (HasType is (t.subst σ)) := by
  have hstr : (RTy.path0 c!"&str").subst σ = .path0 c!"&str" := by simp [RTy.subst, hs.consts c!"&str" (by decide)]
  have hchar : (RTy.path0 c!"char").subst σ = .path0 c!"char" := by simp [RTy.subst, hs.consts c!"char" (by decide)]
  have str {p : P Char Str} : Yields (Nom.map Val.str p) (HasType is ((RTy.path0 c!"&str").subst σ)) := by
    intro s r v h
    obtain ⟨a, -, rfl⟩ := map_inv h
    rw [hstr]; exact .str a
  have chr {p : P Char Char} : Yields (Nom.map Val.char p) (HasType is ((RTy.path0 c!"char").subst σ)) := by
    intro s r v h
    obtain ⟨a, -, rfl⟩ := map_inv h
    rw [hchar]; exact .char a
  induction m with
  | weedle t =>
    intro Γ env u _ h
    simp only [Mac.infer] at h
    split at h
    · cases h; exact hw _ (by assumption)
    · cases h
  | sp => intro Γ env u _ h; cases h; rw [hstr]; exact hsp
  | bind x m k ih1 ih2 =>
    intro Γ env u hm h
    cases x with
    | none =>
      intro s r v hv
      obtain ⟨i, a, -, h2⟩ := seq_inv hv
      exact ih2 hm h _ _ _ h2
    | some x =>
      simp only [Mac.infer, Option.bind_eq_bind, Option.bind_eq_some_iff] at h
      obtain ⟨t, h1, h2⟩ := h
      intro s r v hv
      obtain ⟨i, a, e1, e2⟩ := seq_inv hv
      exact ih2 (hm.cons (ih1 hm h1 _ _ _ e1)) h2 _ _ _ e2
  | ret e => intro Γ env u hm h s r v hv; cases hv; exact Expr.infer_sound hs hm h
  | alt m k ih1 ih2 =>
    intro Γ env u hm h s r v hv
    have key : m.infer ds us ps Γ = some u ∧ (k = .altEnd ∨ k.infer ds us ps Γ = some u) := by
      by_cases hk : k = .altEnd
      · subst hk; exact ⟨h, .inl rfl⟩
      · rw [Mac.infer] at h
        · simp only [Option.bind_eq_bind, Option.bind_eq_some_iff, Option.ite_none_right_eq_some, Option.some.injEq] at h
          obtain ⟨t, h1, h2, rfl⟩ := h
          exact ⟨h1, .inr h2⟩
        · exact hk
    rcases orElse_inv hv with hv | hv
    · exact ih1 hm key.1 _ _ _ hv
    · rcases key.2 with rfl | hk
      · cases hv
      · exact ih2 hm hk _ _ _ hv
  | altEnd => intro Γ env u _ h; cases h
  | map m x e ih =>
    intro Γ env u hm h s r v hv
    simp only [Mac.infer, Option.bind_eq_bind, Option.bind_eq_some_iff] at h
    obtain ⟨t, h1, h2⟩ := h
    obtain ⟨a, e1, rfl⟩ := map_inv hv
    exact Expr.infer_sound hs (hm.cons (ih hm h1 _ _ _ e1)) h2
  | opt m ih =>
    intro Γ env u hm h s r v hv
    simp only [Mac.infer, Option.bind_eq_bind, Option.bind_eq_some_iff] at h
    obtain ⟨t, h1, h2⟩ := h
    cases h2
    obtain ⟨a, e1, rfl⟩ := map_inv hv
    refine ofOption_type fun v e => ?_
    subst e
    rcases opt_inv e1 with h | ⟨b, h, e1⟩
    · cases h
    · cases h; exact ih hm h1 _ _ _ e1
  | many0 m ih =>
    intro Γ env u hm h s r v hv
    simp only [Mac.infer, Option.bind_eq_bind, Option.bind_eq_some_iff] at h
    obtain ⟨t, h1, h2⟩ := h
    cases h2
    obtain ⟨a, e1, rfl⟩ := map_inv hv
    exact .list (many0Loop_inv (fun s r a h => ih hm h1 s r a h) _ _ _ _ e1)
  | separatedList sep m _ ih =>
    intro Γ env u hm h s r v hv
    simp only [Mac.infer, Option.bind_eq_bind, Option.bind_eq_some_iff] at h
    obtain ⟨t, h1, h2⟩ := h
    cases h2
    obtain ⟨a, e1, rfl⟩ := map_inv hv
    exact .list (separatedList_inv (fun s r a h => ih hm h1 s r a h) e1)
  | separatedNonemptyList sep m _ ih =>
    intro Γ env u hm h s r v hv
    simp only [Mac.infer, Option.bind_eq_bind, Option.bind_eq_some_iff] at h
    obtain ⟨t, h1, h2⟩ := h
    cases h2
    obtain ⟨a, e1, rfl⟩ := map_inv hv
    exact .list (separatedNonemptyList_inv (fun s r a h => ih hm h1 s r a h) e1)
  | terminated m k ih _ =>
    intro Γ env u hm h s r v hv
    obtain ⟨i, a, e1, e2⟩ := seq_inv hv
    obtain ⟨b, e3, e4⟩ := map_inv e2
    subst e4
    exact ih hm h _ _ _ e1
  | condSome x m ih =>
    intro Γ env u hm h s r v hv
    simp only [Mac.infer, Option.bind_eq_bind, Option.bind_eq_some_iff] at h
    obtain ⟨t, h1, h2⟩ := h
    cases h2
    obtain ⟨a, e1, rfl⟩ := map_inv hv
    refine ofOption_type fun v e => ?_
    subst e
    unfold Nom.cond at e1
    split at e1
    · obtain ⟨b, e2, e3⟩ := map_inv e1
      cases e3
      exact ih hm h1 _ _ _ e2
    · cases e1
  | recognize m => intro Γ env u _ h; cases h; exact str
  | tag t => intro Γ env u _ h; cases h; exact str
  | identTag t => intro Γ env u _ h; cases h; exact str
  | takeUntil t => intro Γ env u _ h; cases h; exact str
  | takeWhile c => intro Γ env u _ h; cases h; exact str
  | takeWhile1 c => intro Γ env u _ h; cases h; exact str
  | char c => intro Γ env u _ h; cases h; exact chr
  | oneOf cs => intro Γ env u _ h; cases h; exact chr

/-- Names and values, as in a struct. -/
structure Fits (is : List Item) (σ : Str → Option RTy) (Γ : Types) (vs : List (Str × Val)) : Prop where
  names : vs.map Prod.fst = Γ.map Prod.fst
  types : ∀ p ∈ Γ.zip vs, HasType is (p.1.2.subst σ) p.2.2

theorem Fits.nil {is : List Item} {σ : Str → Option RTy} : Fits is σ [] [] := ⟨rfl, by simp⟩

theorem Fits.snoc {is : List Item} {σ : Str → Option RTy} {Γ : Types} {vs : List (Str × Val)} (h : Fits is σ Γ vs) {x : Str}
    {t : RTy} {v : Val} (hv : HasType is (t.subst σ) v) : Fits is σ (Γ ++ [(x, t)]) (vs ++ [(x, v)]) := by
  have e : Γ.length = vs.length := by simpa using (congrArg List.length h.names).symm
  refine ⟨by simp [h.names], fun p hp => ?_⟩
  rw [List.zip_append e] at hp
  rcases List.mem_append.mp hp with hp | hp
  · exact h.types p hp
  · simp at hp; subst hp; exact hv

theorem Fits.models {is : List Item} {σ : Str → Option RTy} {Γ : Types} {vs : List (Str × Val)} (h : Fits is σ Γ vs) :
    Models is σ Γ vs := by
  induction Γ generalizing vs with
  | nil => intro x t h; cases h
  | cons b Γ ih =>
    obtain ⟨y, u⟩ := b
    cases vs with
    | nil => have := h.names; simp at this
    | cons c vs =>
      obtain ⟨z, v⟩ := c
      have hn := h.names
      simp only [List.map_cons, List.cons.injEq] at hn
      obtain ⟨rfl, hn⟩ := hn
      exact (ih ⟨hn, fun p hp => h.types p (by simp [hp])⟩).cons (h.types ((z, u), (z, v)) (by simp))

theorem fields_sound {ds : List Decl} {is : List Item} {us ps : List Str} {σ : Str → Option RTy} (hs : Sound is us σ)
    {w : RTy → P Char Val} (hw : ∀ t, okTy ds us ps t = true → Yields (w t) (HasType is (t.subst σ)))
    (hsp : Yields (w (.path0 c!"sp")) (HasType is (.path0 c!"&str"))) {D : RTy → Val}
    (hD : ∀ a p, ps = [a, p] → HasType is ((RTy.path0 p).subst σ) (D (.path0 p))) {n : Str} : ∀ {fs : List Field} {Γ : Types}
    {env : Env}, Fits is σ Γ env → checkFields ds us ps fs Γ = true → ∀ {s r : Str} {v : Val},
    fields w D n fs env s = .ok r v → ∃ vs, v = .struct n vs ∧ Fits is σ (Γ ++ fs.map fun f => (f.name, f.type)) vs
  | [], Γ, env, he, _, s, r, v, h => by
    cases h
    exact ⟨env, rfl, by simpa using he⟩
  | ⟨x, t, i⟩ :: fs, Γ, env, he, hc, s, r, v, h => by
    simp only [checkFields, Bool.and_eq_true] at hc
    have next {v'} (hv : HasType is (t.subst σ) v') {s'} (h : fields w D n fs (env ++ [(x, v')]) s' = .ok r v) :
        ∃ vs, v = .struct n vs ∧ Fits is σ (Γ ++ (x, t) :: fs.map fun f => (f.name, f.type)) vs := by
      have := fields_sound hs hw hsp hD (he.snoc hv) hc.2 h
      simpa using this
    cases i with
    | weedle =>
      obtain ⟨i, a, e1, e2⟩ := seq_inv h
      exact next (hw _ hc.1 _ _ _ e1) e2
    | mac m =>
      obtain ⟨i, a, e1, e2⟩ := seq_inv h
      exact next (Mac.infer_sound hs hw hsp m he.models (by simpa using hc.1) _ _ _ e1) e2
    | marker =>
      have h1 := hc.1
      simp only at h1
      split at h1
      · rename_i a p
        have : t = .path0 p := by simpa using h1
        subst this
        exact next (hD a p rfl) h
      · cases h1

theorem variants_sound {is : List Item} {w : RTy → P Char Val} {n : Str} {vs : List (Str × RTy)} (hi : .enum n vs ∈ is) :
    ∀ {us : List (Str × RTy)}, (∀ u ∈ us, u ∈ vs ∧ Yields (w u.2) (HasType is u.2)) → 
    Yields (variants w n us) (HasType is (.path0 n))
  | [], _ => by intro s r v h; cases h
  | (x, t) :: us, hu => by
    intro s r v h
    rcases orElse_inv h with h | h
    · obtain ⟨a, h', rfl⟩ := map_inv h
      have := hu (x, t) (by simp)
      exact .variant hi this.1 (this.2 _ _ _ h')
    · exact variants_sound hi (fun u h => hu u (by simp [h])) _ _ _ h

/-- What is assumed about all declarations. -/
structure Checked (ds : List Decl) (us : List Str) (ts : List (Str × RTy)) (is : List Item) : Prop where
  check : ∀ d ∈ ds, d.check ds us ts = true
  tuples : ∀ t ∈ ts, .tuple t.1 [] t.2 ∈ is
  has : ∀ d ∈ ds, ∀ it ∈ d.lower, it ∈ is
  units : ∀ n ∈ us, .unit n ∈ is
  option : ∀ ps fs, .struct c!"Option" ps fs ∉ is
  sp : ∀ d ∈ ds, d.name = c!"sp" → ∃ m, d = .fn c!"sp" [] m

theorem RTy.eq_path0 {T : RTy} (h : T.args.length = 0) : T = .path0 T.name := by
  cases T <;> simp [RTy.args, RTy.name] at h ⊢

theorem parser_sound {ds : List Decl} {us : List Str} {is : List Item} {ts : List (Str × RTy)} (H : Checked ds us ts is) {w : RTy → P Char Val}
    (hw : ∀ t, okTy ds us [] t = true → Yields (w t) (HasType is t))
    (hsp : Yields (w (.path0 c!"sp")) (HasType is (.path0 c!"&str"))) {T : RTy} {d : Decl} (hd : d ∈ ds) (hn : d.name = T.name)
    (hl : d.params.length = T.args.length) (hT : okTy ds us [] T = true ∨ T = .path0 c!"sp") :
    Yields (d.parser w T.args) (HasType is (if T.name = c!"sp" then .path0 c!"&str" else T)) := by
  have hc := H.check d hd
  simp only [Decl.check, Bool.and_eq_true, decide_eq_true_eq, List.all_eq_true, Bool.not_eq_true', ← Bool.not_eq_true,
    List.contains_iff_mem] at hc
  obtain ⟨⟨hnd, hps⟩, hc⟩ := hc
  have hargs : ∀ u ∈ T.args, okTy ds us [] u = true := by
    rcases hT with h | h
    · exact okTy_args h
    · subst h; simp [RTy.args]
  have hs : Sound is us (assign d.params T.args) := by
    refine ⟨fun n hn => ⟨H.units n hn, assign_none (fun h => (hps n h).2 hn) _⟩, fun n hn => 
      assign_none (fun h => (hps n h).1 hn) _, H.option⟩
  have hs0 : Sound is us (assign [] T.args) :=
    ⟨fun n hn => ⟨H.units n hn, rfl⟩, fun n hn => rfl, H.option⟩
  have hw' : ∀ t, okTy ds us d.params t = true → Yields (w (t.subst (assign d.params T.args)))
      (HasType is (t.subst (assign d.params T.args))) := fun t ht => hw _ (okTy_subst hl hargs ht)
  have hsp' : Yields (w ((RTy.path0 c!"sp").subst (assign d.params T.args))) (HasType is (.path0 c!"&str")) := by
    have : assign d.params T.args c!"sp" = none := hs.consts _ (by decide)
    simp only [RTy.subst, this]
    exact hsp
  have notsp (h : ∀ m, d ≠ .fn c!"sp" [] m) : ¬ T.name = c!"sp" := by
    intro e
    obtain ⟨m, hm⟩ := H.sp d hd (hn.trans e)
    exact h m hm
  cases d with
  | struct n ps fs =>
    rw [if_neg (notsp (by simp))]
    simp only [Bool.and_eq_true] at hc
    intro s r v h
    have hD : ∀ a p, ps = [a, p] → HasType is ((RTy.path0 p).subst (assign ps T.args))
        ((fun t => marker (RTy.subst (assign ps T.args) t)) (.path0 p)) := by
      rintro a p rfl
      have hap : a ≠ p := by simpa [Decl.params] using hnd
      match T, hl, hT with
      | .path2 m b c, _, .inl hT =>
        have e : n = m := hn
        subst e
        simp only [okTy, Bool.and_eq_true, Bool.or_eq_true] at hT
        have h2 := hT.2.resolve_left (by simpa using hc.1)
        cases c with
        | path0 x =>
          simp only [Bool.and_eq_true, List.contains_iff_mem] at h2
          simp only [RTy.subst, assign, RTy.args, if_neg hap, if_true, Option.getD_some, marker]
          exact .token (H.units x h2.1)
        | _ => simp at h2
    obtain ⟨vs, rfl, hv⟩ := fields_sound (ps := ps) (σ := assign ps T.args) hs hw' hsp' hD Fits.nil hc.2 h
    have e : n = T.name := hn
    subst e
    have hi := H.has _ hd (.struct T.name ps (fs.map fun f => (f.name, f.type))) (by simp [Decl.lower])
    exact .struct hi hl (by simpa using hv.names) (by simpa using hv.types)
  | newtype n m =>
    rw [if_neg (notsp (by simp)), RTy.eq_path0 (T := T) (by simpa [Decl.params] using hl.symm)]
    intro s r v h
    obtain ⟨a, h', rfl⟩ := map_inv h
    simp only at hc
    split at hc
    · rename_i t ht
      have e : n = T.name := hn
      subst e
      refine .newtype (H.tuples _ (by simpa using hc)) ?_
      have := Mac.infer_sound (ds := ds) (ps := []) hs0 (w := w) (fun t ht => by rw [subst_none]; exact hw t ht) hsp m Models.nil ht _ _ _ h'
      rwa [subst_none] at this
    · cases hc
  | enum n vs =>
    rw [if_neg (notsp (by simp)), RTy.eq_path0 (T := T) (by simpa [Decl.params] using hl.symm)]
    have e : n = T.name := hn
    subst e
    simp only [List.all_eq_true] at hc
    exact variants_sound (H.has _ hd _ (by simp [Decl.lower])) fun u hu => ⟨hu, hw _ (hc u hu)⟩
  | alias n t =>
    rw [if_neg (notsp (by simp)), RTy.eq_path0 (T := T) (by simpa [Decl.params] using hl.symm)]
    have e : n = T.name := hn
    subst e
    intro s r v h
    exact .alias (H.has _ hd _ (by simp [Decl.lower])) (hw _ hc _ _ _ h)
  | fn n ps m =>
    have e : n = T.name := hn
    subst e
    simp only [beq_iff_eq] at hc
    intro s r v h
    split
    · rename_i h'
      rw [if_pos h'] at hc
      have := Mac.infer_sound hs hw' hsp' m Models.nil hc s r v h
      simpa [RTy.subst, hs.consts c!"&str" (by decide)] using this
    · rename_i h'
      rw [if_neg h'] at hc
      cases ha : applied T.name ps with
      | none => exact absurd ha (applied_ne hl)
      | some t =>
        rw [ha] at hc
        have := Mac.infer_sound hs hw' hsp' m Models.nil hc s r v h
        simpa only [Decl.params, applied_subst ha rfl hl hnd] using this

theorem find_mem {ds : List Decl} {n : Str} {d : Decl} (h : find ds n = some d) : d ∈ ds ∧ d.name = n := by
  unfold find at h
  exact ⟨List.mem_of_find?_eq_some h, by simpa using List.find?_some h⟩

theorem parse_sound {ds : List Decl} {us : List Str} {is : List Item} {ts : List (Str × RTy)} (H : Checked ds us ts is) : ∀ n,
    (∀ t, okTy ds us [] t = true → Yields (parse ds n t) (HasType is t)) ∧
    Yields (parse ds n (.path0 c!"sp")) (HasType is (.path0 c!"&str"))
  | 0 => ⟨fun _ _ _ _ _ h => (nomatch h), fun _ _ _ h => (nomatch h)⟩
  | n + 1 => by
    obtain ⟨ih1, ih2⟩ := parse_sound H n
    constructor
    · intro t ht
      rcases okTy_arity ht with ⟨_, _, h⟩ | ⟨d, hd, hl⟩
      · simp at h
      · have := parser_sound H ih1 ih2 (find_mem hd).1 (find_mem hd).2 hl (.inl ht)
        have hsp : ¬ t.name = c!"sp" := by
          intro e
          cases t with
          | path0 n => simp only [RTy.name] at e; subst e; simp [okTy] at ht
          | _ =>
            obtain ⟨m, hm⟩ := H.sp d (find_mem hd).1 ((find_mem hd).2.trans e)
            subst hm
            simp [RTy.args, Decl.params] at hl
        rw [if_neg hsp] at this
        simpa only [parse, hd] using this
    · cases hd : find ds c!"sp" with
      | none => intro s r v h; simp only [parse, RTy.name, hd] at h; cases h
      | some d =>
        obtain ⟨m, hm⟩ := H.sp d (find_mem hd).1 (find_mem hd).2
        have := parser_sound H ih1 ih2 (T := .path0 c!"sp") (find_mem hd).1 (find_mem hd).2 (by subst hm; rfl) (.inr rfl)
        simp only [parse, RTy.name, hd]
        simpa only [RTy.name, if_true] using this

end Verif.Source
