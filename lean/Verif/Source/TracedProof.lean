import Verif.Source.Traced
import Verif.Source.TypeSound
import Verif.Proof.Trivia
import Verif.Proof.LinkItems

/-!
# Values are read from places in the text

As `Verif/Source/TypeSound.lean`, with places. The definitions serve the proof only, they model no code.
-/

namespace Verif.Source.Traces
open Nom Links Recodes

variable {is : List Item} {Q : RTy → Str → Str → Val → Prop}

theorem contains_widen {s r S R x : Str} (h : Contains s r x) (hs : s <:+ S) (hr : R <:+ r) : Contains S R x := by
  obtain ⟨a, b, rfl⟩ := h
  obtain ⟨c, rfl⟩ := hs
  obtain ⟨d, rfl⟩ := hr
  exact ⟨c ++ a, b ++ d, by simp⟩

theorem widen {s r : Str} {T : RTy} {v : Val} (h : Traced is Q s r T v) :
    ∀ {S R : Str}, s <:+ S → R <:+ r → Traced is Q S R T v := by
  induction h with
  | unit => exact fun _ _ => .unit
  | str h => exact fun hs hr => .str (contains_widen h hs hr)
  | char c => exact fun _ _ => .char c
  | bool b => exact fun _ _ => .bool b
  | none => exact fun _ _ => .none
  | some _ ih => exact fun hs hr => .some (ih hs hr)
  | list _ ih => exact fun hs hr => .list fun v hv => ih v hv hs hr
  | box _ ih => exact fun hs hr => .box (ih hs hr)
  | pair _ _ ih1 ih2 => exact fun hs hr => .pair (ih1 hs hr) (ih2 hs hr)
  | triple _ _ _ ih1 ih2 ih3 => exact fun hs hr => .triple (ih1 hs hr) (ih2 hs hr) (ih3 hs hr)
  | token h => exact fun _ _ => .token h
  | newtype h1 h2 h3 h4 h5 h6 _ => exact fun hs hr => .newtype h1 (h2.trans hs) (hr.trans h3) h4 h5 h6
  | struct h1 h2 h3 h4 h5 h6 h7 h8 _ => exact fun hs hr => .struct h1 h2 h3 (h4.trans hs) (hr.trans h5) h6 h7 h8
  | variant h1 h2 h3 h4 h5 h6 h7 _ => exact fun hs hr => .variant h1 h2 (h3.trans hs) (hr.trans h4) h5 h6 h7
  | «alias» h1 h2 h3 h4 h5 h6 _ => exact fun hs hr => .alias h1 (h2.trans hs) (hr.trans h3) h4 h5 h6

theorem imp {Q' : RTy → Str → Str → Val → Prop} (hq : ∀ T s r v, Q T s r v → Q' T s r v) {s r : Str} {T : RTy} {v : Val}
    (h : Traced is Q s r T v) : Traced is Q' s r T v := by
  induction h with
  | unit => exact .unit
  | str h => exact .str h
  | char c => exact .char c
  | bool b => exact .bool b
  | none => exact .none
  | some _ ih => exact .some ih
  | list _ ih => exact .list ih
  | box _ ih => exact .box ih
  | pair _ _ ih1 ih2 => exact .pair ih1 ih2
  | triple _ _ _ ih1 ih2 ih3 => exact .triple ih1 ih2 ih3
  | token h => exact .token h
  | newtype h1 h2 h3 h4 h5 _ ih => exact .newtype h1 h2 h3 h4 (hq _ _ _ _ h5) ih
  | struct h1 h2 h3 h4 h5 h6 h7 _ ih => exact .struct h1 h2 h3 h4 h5 h6 (hq _ _ _ _ h7) ih
  | variant h1 h2 h3 h4 h5 h6 _ ih => exact .variant h1 h2 h3 h4 h5 (hq _ _ _ _ h6) ih
  | «alias» h1 h2 h3 h4 h5 _ ih => exact .alias h1 h2 h3 h4 (hq _ _ _ _ h5) ih

/-! ## Parts -/

theorem mem_zip_of_mem {fs : List (Str × RTy)} : ∀ {vs : List (Str × Val)}, vs.map Prod.fst = fs.map Prod.fst → ∀ {p}, p ∈ vs →
    ∃ f, (f, p) ∈ fs.zip vs := by
  induction fs with
  | nil => intro vs h p hp; cases vs <;> simp_all
  | cons f fs ih =>
    intro vs h p hp
    cases vs with
    | nil => cases hp
    | cons q vs =>
      simp only [List.map_cons, List.cons.injEq] at h
      rcases List.mem_cons.mp hp with rfl | hp
      · exact ⟨f, by simp⟩
      · obtain ⟨g, hg⟩ := ih h.2 hp
        exact ⟨g, by simp [hg]⟩

theorem part {s r : Str} {T : RTy} {v u : Val} (h : Traced is Q s r T v) : Part u v →
    ∃ U s' r', s' <:+ s ∧ r <:+ r' ∧ Traced is Q s' r' U u := by
  have here {s r : Str} {T : RTy} (h : Traced is Q s r T u) : ∃ U s' r', s' <:+ s ∧ r <:+ r' ∧ Traced is Q s' r' U u :=
    ⟨T, s, r, List.suffix_refl _, List.suffix_refl _, h⟩
  have up {s r s' r' : Str} (h1 : s' <:+ s) (h2 : r <:+ r') (h : ∃ U s'' r'', s'' <:+ s' ∧ r' <:+ r'' ∧ Traced is Q s'' r'' U u) :
      ∃ U s' r', s' <:+ s ∧ r <:+ r' ∧ Traced is Q s' r' U u := by
    obtain ⟨U, a, b, h3, h4, h5⟩ := h
    exact ⟨U, a, b, h3.trans h1, h2.trans h4, h5⟩
  induction h with
  | unit => intro hp; cases hp; exact here .unit
  | str h => intro hp; cases hp; exact here (.str h)
  | char c => intro hp; cases hp; exact here (.char c)
  | bool c => intro hp; cases hp; exact here (.bool c)
  | none => intro hp; cases hp; exact ⟨_, _, _, List.suffix_refl _, List.suffix_refl _, .none (T := .path0 [])⟩
  | some h ih =>
    intro hp
    cases hp with
    | refl => exact here (.some h)
    | some hp => exact ih hp
  | list h ih =>
    intro hp
    cases hp with
    | refl => exact here (.list h)
    | list hv hp => exact ih _ hv hp
  | box h ih =>
    intro hp
    cases hp with
    | refl => exact here (.box h)
    | box hp => exact ih hp
  | pair h1 h2 ih1 ih2 =>
    intro hp
    cases hp with
    | refl => exact here (.pair h1 h2)
    | pair1 hp => exact ih1 hp
    | pair2 hp => exact ih2 hp
  | triple h1 h2 h3 ih1 ih2 ih3 =>
    intro hp
    cases hp with
    | refl => exact here (.triple h1 h2 h3)
    | triple1 hp => exact ih1 hp
    | triple2 hp => exact ih2 hp
    | triple3 hp => exact ih3 hp
  | token h => intro hp; cases hp; exact here (.token h)
  | newtype h1 h2 h3 h4 h5 h6 ih =>
    intro hp
    cases hp with
    | refl => exact here (.newtype h1 h2 h3 h4 h5 h6)
    | newtype hp => exact up h2 h3 (ih hp)
  | struct h1 h2 h3 h4 h5 h6 h7 h8 ih =>
    intro hp
    cases hp with
    | refl => exact here (.struct h1 h2 h3 h4 h5 h6 h7 h8)
    | struct hv hp =>
      obtain ⟨f, hf⟩ := mem_zip_of_mem h3 hv
      exact up h4 h5 (ih _ hf hp)
  | variant h1 h2 h3 h4 h5 h6 h7 ih =>
    intro hp
    cases hp with
    | refl => exact here (.variant h1 h2 h3 h4 h5 h6 h7)
    | variant hp => exact up h3 h4 (ih hp)
  | «alias» h1 h2 h3 h4 h5 h6 ih => exact fun hp => up h2 h3 (ih hp)

theorem node {s r : Str} {T : RTy} {v : Val} (h : Traced is Q s r T v) (hv : v.isNode = true) :
    ∃ U s' r', s' <:+ s ∧ r <:+ r' ∧ r' <:+ s' ∧ U.name = v.typeName ∧ Q U s' r' v := by
  induction h with
  | newtype h1 h2 h3 h4 h5 h6 ih => exact ⟨_, _, _, h2, h3, h4, rfl, h5⟩
  | struct h1 h2 h3 h4 h5 h6 h7 h8 ih => exact ⟨_, _, _, h4, h5, h6, rfl, h7⟩
  | variant h1 h2 h3 h4 h5 h6 h7 ih => exact ⟨_, _, _, h3, h4, h5, rfl, h6⟩
  | «alias» h1 h2 h3 h4 h5 h6 ih =>
    obtain ⟨U, a, b, k1, k2, k3, k4⟩ := ih hv
    exact ⟨U, a, b, k1.trans h2, h3.trans k2, k3, k4⟩
  | _ => cases hv

theorem string {s r : Str} {T : RTy} {x : Str} (h : Traced is Q s r T (.str x)) : Contains s r x := by
  generalize e : Val.str x = v at h
  induction h with
  | str h => cases e; exact h
  | «alias» h1 h2 h3 h4 h5 h6 ih => exact contains_widen (ih e) h2 h3
  | _ => cases e

/-! ## Loops -/

/-- `p` consumes a beginning, and its results have the property at their places. -/
def At {α : Type} (p : P Char α) (Q : Str → Str → α → Prop) : Prop := ∀ s r a, p s = .ok r a → r <:+ s ∧ Q s r a

/-- A property of places that larger places have, too. -/
def Wide {α : Type} (Q : Str → Str → α → Prop) : Prop := ∀ {s r S R : Str} {a : α}, Q s r a → s <:+ S → R <:+ r → Q S R a

section
variable {α β : Type} {Q : Str → Str → α → Prop}

theorem many0Loop_at {p : P Char α} (hp : At p Q) (hQ : Wide Q) : ∀ n, At (many0Loop p n) fun s r as => ∀ a ∈ as, Q s r a
  | 0, _, _, _, h => by cases h
  | n + 1, s, r, as, h => by
    unfold many0Loop at h
    split at h
    · cases h; simp
    · cases h
    · cases h
    · next i1 a e =>
      split at h
      · cases h
      · obtain ⟨bs, h1, rfl⟩ := consRes_inv h
        obtain ⟨h2, h3⟩ := hp _ _ _ e
        obtain ⟨h4, h5⟩ := many0Loop_at hp hQ n _ _ _ h1
        refine ⟨h4.trans h2, fun a ha => ?_⟩
        rcases List.mem_cons.mp ha with rfl | ha
        · exact hQ h3 (List.suffix_refl _) h4
        · exact hQ (h5 a ha) h2 (List.suffix_refl _)

theorem sepLoop_at {sep : P Char β} (hsep : Suff sep) {p : P Char α} (hp : At p Q) (hQ : Wide Q) :
    ∀ n, At (sepLoop sep p n) fun s r as => ∀ a ∈ as, Q s r a
  | 0, _, _, _, h => by cases h
  | n + 1, s, r, as, h => by
    unfold sepLoop at h
    split at h
    · cases h; simp
    · cases h
    · cases h
    · next i1 b e =>
      have h0 := hsep _ _ _ e
      split at h
      · cases h
      · split at h
        · cases h; simp
        · cases h
        · cases h
        · next i2 a e' =>
          split at h
          · cases h
          · obtain ⟨bs, h1, rfl⟩ := consRes_inv h
            obtain ⟨h2, h3⟩ := hp _ _ _ e'
            obtain ⟨h4, h5⟩ := sepLoop_at hsep hp hQ n _ _ _ h1
            refine ⟨h4.trans (h2.trans h0), fun a ha => ?_⟩
            rcases List.mem_cons.mp ha with rfl | ha
            · exact hQ h3 h0 h4
            · exact hQ (h5 a ha) (h2.trans h0) (List.suffix_refl _)

theorem separatedNonemptyList_at {sep : P Char β} (hsep : Suff sep) {p : P Char α} (hp : At p Q) (hQ : Wide Q) :
    At (separatedNonemptyList sep p) fun s r as => ∀ a ∈ as, Q s r a := by
  intro s r as h
  unfold separatedNonemptyList at h
  split at h
  · cases h
  · cases h
  · next i1 a e =>
    split at h
    · cases h
    · obtain ⟨bs, h1, rfl⟩ := consRes_inv h
      obtain ⟨h2, h3⟩ := hp _ _ _ e
      obtain ⟨h4, h5⟩ := sepLoop_at hsep hp hQ _ _ _ _ h1
      refine ⟨h4.trans h2, fun a ha => ?_⟩
      rcases List.mem_cons.mp ha with rfl | ha
      · exact hQ h3 (List.suffix_refl _) h4
      · exact hQ (h5 a ha) h2 (List.suffix_refl _)

theorem separatedList_at {sep : P Char β} (hsep : Suff sep) {p : P Char α} (hp : At p Q) (hQ : Wide Q) :
    At (separatedList sep p) fun s r as => ∀ a ∈ as, Q s r a := by
  intro s r as h
  unfold separatedList at h
  split at h
  · cases h; simp
  · cases h
  · cases h
  · next i1 a e =>
    split at h
    · cases h
    · obtain ⟨bs, h1, rfl⟩ := consRes_inv h
      obtain ⟨h2, h3⟩ := hp _ _ _ e
      obtain ⟨h4, h5⟩ := sepLoop_at hsep hp hQ _ _ _ _ h1
      refine ⟨h4.trans h2, fun a ha => ?_⟩
      rcases List.mem_cons.mp ha with rfl | ha
      · exact hQ h3 (List.suffix_refl _) h4
      · exact hQ (h5 a ha) h2 (List.suffix_refl _)

end

/-! ## Strings -/

/-- The string is what was consumed. -/
def Whole (p : P Char Str) : Prop := ∀ s r x, p s = .ok r x → s = x ++ r

theorem whole_tag {t : Str} : Traces.Whole (tag t) := by
  intro s r x h
  simp only [tag] at h
  split at h
  · next hp =>
    cases h
    obtain ⟨b, rfl⟩ := List.isPrefixOf_iff_prefix.1 hp
    simp
  · cases h

theorem whole_identTag {t : Str} : Traces.Whole (Verif.identTag t) := by
  intro s r x h
  simp only [Verif.identTag] at h
  split at h
  · next e =>
    have := whole_tag _ _ _ e
    split at h
    · split at h
      · cases h
      · cases h; exact this
    · cases h; exact this
  · cases h
  · cases h

theorem whole_takeWhile {f : Char → Bool} : Traces.Whole (takeWhile f) := by
  intro s r x h
  cases h
  exact (List.takeWhile_append_dropWhile).symm

theorem whole_takeWhile1 {f : Char → Bool} : Traces.Whole (takeWhile1 f) := by
  intro s r x h
  simp only [takeWhile1] at h
  split at h
  · cases h
  · cases h
    exact (List.takeWhile_append_dropWhile).symm

theorem whole_recognize {α : Type} {p : P Char α} (hp : Suff p) : Traces.Whole (recognize p) := by
  intro s r x h
  simp only [recognize] at h
  split at h
  · next e =>
    cases h
    obtain ⟨a, rfl⟩ := hp _ _ _ e
    simp
  · cases h
  · cases h

theorem whole_takeUntil {t : Str} : Traces.Whole (takeUntil t) := by
  intro s r x h
  simp only [takeUntil] at h
  split at h
  · next e => cases h; exact (splitAtFirst_some e).1
  · cases h

theorem Whole.suff {p : P Char Str} (h : Traces.Whole p) : Suff p := fun s r x e => ⟨x, (h s r x e).symm⟩

/-! ## Remainders -/

theorem suff_mac {w : RTy → P Char Val} (hw : ∀ t, Suff (w t)) : ∀ (m : Mac) (env : Env), Suff (m.run w env)
  | .weedle t, _ => hw t
  | .sp, _ => hw _
  | .bind x m k, env => suff_seq (suff_mac hw m env) fun v => by
    cases x with
    | none => exact suff_mac hw k _
    | some x => exact suff_mac hw k _
  | .ret e, env => suff_ret
  | .alt m k, env => suff_orElse (suff_mac hw m env) (suff_mac hw k env)
  | .altEnd, _ => suff_altEnd
  | .map m x e, env => suff_map (suff_mac hw m env)
  | .opt m, env => suff_map (suff_opt (suff_mac hw m env))
  | .many0 m, env => suff_map (suff_many0 (suff_mac hw m env))
  | .separatedList sep m, env => suff_map (suff_separatedList (suff_mac hw sep env) (suff_mac hw m env))
  | .separatedNonemptyList sep m, env => suff_map (suff_separatedNonemptyList (suff_mac hw sep env) (suff_mac hw m env))
  | .terminated m k, env => suff_seq (suff_mac hw m env) fun _ => suff_seq (suff_mac hw k env) fun _ => suff_ret
  | .condSome x m, env => by
    refine suff_map ?_
    unfold Nom.cond
    split
    · exact suff_map (suff_mac hw m env)
    · exact suff_ret
  | .recognize m, env => suff_map (suff_recognize (suff_mac hw m env))
  | .tag t, _ => suff_map suff_tag
  | .identTag t, _ => suff_map suff_identTag
  | .takeUntil t, _ => suff_map whole_takeUntil.suff
  | .takeWhile c, _ => suff_map suff_takeWhile
  | .takeWhile1 c, _ => suff_map suff_takeWhile1
  | .char c, _ => suff_map suff_char
  | .oneOf cs, _ => suff_map suff_oneOf

/-! ## Macros -/

/-- The variables have values of their types, from the place. -/
def Models (is : List Item) (Q : RTy → Str → Str → Val → Prop) (S R : Str) (σ : Str → Option RTy) (Γ : Types) (env : Env) : Prop :=
  ∀ x t, lookup x Γ = some t → Traced is Q S R (t.subst σ) (env.get x)

variable {S R : Str}

theorem Models.nil {σ : Str → Option RTy} : Models is Q S R σ [] [] := by
  intro x t h; cases h

theorem Models.widen {R' : Str} {σ : Str → Option RTy} {Γ : Types} {env : Env} (h : Models is Q S R σ Γ env) (hr : R' <:+ R) :
    Models is Q S R' σ Γ env := fun x t e => Traces.widen (h x t e) (List.suffix_refl _) hr

theorem Models.cons {σ : Str → Option RTy} {Γ : Types} {env : Env} (h : Models is Q S R σ Γ env) {x : Str}
    {t : RTy} {v : Val} (hv : Traced is Q S R (t.subst σ) v) : Models is Q S R σ ((x, t) :: Γ) ((x, v) :: env) := by
  intro y u hy
  simp only [lookup] at hy
  simp only [Env.get]
  split at hy
  · cases hy; simp_all
  · simp_all [h y u]

theorem option_inv {T : RTy} {v : Val} (h : Traced is Q S R (.path1 c!"Option" T) v)
    (hi : ∀ ps fs, .struct c!"Option" ps fs ∉ is) : v = .none ∨ ∃ w, v = .some w ∧ Traced is Q S R T w := by
  cases h with
  | none => exact .inl rfl
  | some h => exact .inr ⟨_, rfl, h⟩
  | struct h => exact absurd h (hi _ _)

theorem ofOption_type {T : RTy} {x : Option Val} (h : ∀ v, x = some v → Traced is Q S R T v) :
    Traced is Q S R (.path1 c!"Option" T) (.ofOption x) := by
  cases x with
  | none => exact .none
  | some v => exact .some (h v rfl)

theorem expr_sound {us : List Str} {σ : Str → Option RTy} (hs : Sound is us σ) {Γ : Types} {env : Env}
    (hm : Models is Q S R σ Γ env) {e : Expr} {t : RTy} (h : e.infer us Γ = some t) : Traced is Q S R (t.subst σ) (e.eval env) := by
  cases e with
  | unit => cases h; simp only [RTy.subst, hs.consts c!"()" (by decide)]; exact .unit
  | bool b => cases h; simp only [RTy.subst, hs.consts c!"bool" (by decide)]; exact .bool b
  | var x => exact hm _ _ h
  | pair x y =>
    simp only [Expr.infer, Option.bind_eq_bind, Option.bind_eq_some_iff] at h
    obtain ⟨a, ha, b, hb, h⟩ := h
    cases h
    exact .pair (hm _ _ ha) (hm _ _ hb)
  | triple x y z =>
    simp only [Expr.infer, Option.bind_eq_bind, Option.bind_eq_some_iff] at h
    obtain ⟨a, ha, b, hb, c, hc, h⟩ := h
    cases h
    exact .triple (hm _ _ ha) (hm _ _ hb) (hm _ _ hc)
  | box x =>
    simp only [Expr.infer, Option.bind_eq_bind, Option.bind_eq_some_iff] at h
    obtain ⟨a, ha, h⟩ := h
    cases h
    exact .box (hm _ _ ha)
  | unwrapOrNone x =>
    simp only [Expr.infer] at h
    split at h
    · rename_i e
      split at h
      · rename_i hab
        obtain ⟨rfl, rfl⟩ := hab
        cases h
        have := hm _ _ e
        rcases option_inv this hs.option with h | ⟨w, h, hw⟩
        · simp only [Expr.eval, h]; exact .none
        · simp only [Expr.eval, h]; exact hw
      · cases h
    · cases h
  | token n =>
    simp only [Expr.infer] at h
    split at h
    · rename_i hn
      cases h
      have := hs.units n (by simpa using hn)
      simp only [RTy.subst, this.2]
      exact .token this.1
    · cases h

/-- What the parsers of types return, at the place. -/
def Parsers (ds : List Decl) (us ps : List Str) (is : List Item) (Q : RTy → Str → Str → Val → Prop) (σ : Str → Option RTy)
    (w : RTy → P Char Val) : Prop :=
  (∀ t, Suff (w t)) ∧
  (∀ t, okTy ds us ps t = true → ∀ s r v, w t s = .ok r v → Traced is Q s r (t.subst σ) v) ∧
  ∀ s r v, w (.path0 c!"sp") s = .ok r v → Traced is Q s r (.path0 c!"&str") v

theorem mac_sound {ds : List Decl} {us ps : List Str} {σ : Str → Option RTy} (hs : Sound is us σ)
    {w : RTy → P Char Val} (hw : Parsers ds us ps is Q σ w) (m : Mac) : ∀ {Γ : Types} {env : Env} {t : RTy} {s : Str}, s <:+ S →
    Models is Q S s σ Γ env → m.infer ds us ps Γ = some t → ∀ {r : Str} {v : Val}, m.run w env s = .ok r v →
    Traced is Q S r (t.subst σ) v := by
  have hstr : (RTy.path0 c!"&str").subst σ = .path0 c!"&str" := by simp [RTy.subst, hs.consts c!"&str" (by decide)]
  have hchar : (RTy.path0 c!"char").subst σ = .path0 c!"char" := by simp [RTy.subst, hs.consts c!"char" (by decide)]
  have str {p : P Char Str} (hp : Traces.Whole p) {s : Str} (h0 : s <:+ S) {r : Str} {v : Val} (h : Nom.map Val.str p s = .ok r v) :
      Traced is Q S r ((RTy.path0 c!"&str").subst σ) v := by
    obtain ⟨a, e, rfl⟩ := map_inv h
    obtain ⟨c, rfl⟩ := h0
    rw [hstr]
    exact .str ⟨c, [], by simp [hp _ _ _ e]⟩
  have chr {p : P Char Char} {s : Str} {r : Str} {v : Val} (h : Nom.map Val.char p s = .ok r v) :
      Traced is Q S r ((RTy.path0 c!"char").subst σ) v := by
    obtain ⟨a, -, rfl⟩ := map_inv h
    rw [hchar]; exact .char a
  have suff := suff_mac hw.1
  have loop {m : Mac} {Γ : Types} {env : Env} {t : RTy} {s : Str} (h0 : s <:+ S) (hm : Models is Q S s σ Γ env)
      (ih : ∀ {s'}, s' <:+ S → Models is Q S s' σ Γ env → ∀ {r v}, m.run w env s' = .ok r v → Traced is Q S r (t.subst σ) v) :
      At (m.run w env) fun s' r v => s' <:+ s → Traced is Q S r (t.subst σ) v :=
    fun s' r v e => ⟨suff m env _ _ _ e, fun h' => ih (h'.trans h0) (hm.widen h') e⟩
  have wide {t : RTy} {s : Str} : Wide fun s' r v => s' <:+ s → Traced is Q S r (t.subst σ) v :=
    fun h h1 h2 h3 => widen (h (h1.trans h3)) (List.suffix_refl _) h2
  induction m with
  | weedle t =>
    intro Γ env u s h0 _ h r v hv
    simp only [Mac.infer] at h
    split at h
    · cases h; exact widen (hw.2.1 _ (by assumption) _ _ _ hv) h0 (List.suffix_refl _)
    · cases h
  | sp => intro Γ env u s h0 _ h r v hv; cases h; rw [hstr]; exact widen (hw.2.2 _ _ _ hv) h0 (List.suffix_refl _)
  | bind x m k ih1 ih2 =>
    intro Γ env u s h0 hm h r v hv
    obtain ⟨i, a, e1, e2⟩ := seq_inv hv
    have h1 := suff m env _ _ _ e1
    cases x with
    | none => exact ih2 (h1.trans h0) (hm.widen h1) h e2
    | some x =>
      simp only [Mac.infer, Option.bind_eq_bind, Option.bind_eq_some_iff] at h
      obtain ⟨t, h2, h3⟩ := h
      exact ih2 (h1.trans h0) ((hm.widen h1).cons (ih1 h0 hm h2 e1)) h3 e2
  | ret e => intro Γ env u s h0 hm h r v hv; cases hv; exact expr_sound hs hm h
  | alt m k ih1 ih2 =>
    intro Γ env u s h0 hm h r v hv
    have key : m.infer ds us ps Γ = some u ∧ (k = .altEnd ∨ k.infer ds us ps Γ = some u) := by
      by_cases hk : k = .altEnd
      · subst hk; exact ⟨h, .inl rfl⟩
      · rw [Mac.infer] at h
        · simp only [Option.bind_eq_bind, Option.bind_eq_some_iff, Option.ite_none_right_eq_some, Option.some.injEq] at h
          obtain ⟨t, h1, h2, rfl⟩ := h
          exact ⟨h1, .inr h2⟩
        · exact hk
    rcases orElse_inv hv with hv | hv
    · exact ih1 h0 hm key.1 hv
    · rcases key.2 with rfl | hk
      · cases hv
      · exact ih2 h0 hm hk hv
  | altEnd => intro Γ env u s _ _ h; cases h
  | map m x e ih =>
    intro Γ env u s h0 hm h r v hv
    simp only [Mac.infer, Option.bind_eq_bind, Option.bind_eq_some_iff] at h
    obtain ⟨t, h1, h2⟩ := h
    obtain ⟨a, e1, rfl⟩ := map_inv hv
    exact expr_sound hs ((hm.widen (suff m env _ _ _ e1)).cons (ih h0 hm h1 e1)) h2
  | opt m ih =>
    intro Γ env u s h0 hm h r v hv
    simp only [Mac.infer, Option.bind_eq_bind, Option.bind_eq_some_iff] at h
    obtain ⟨t, h1, h2⟩ := h
    cases h2
    obtain ⟨a, e1, rfl⟩ := map_inv hv
    refine ofOption_type fun v e => ?_
    subst e
    rcases opt_inv e1 with h | ⟨b, h, e1⟩
    · cases h
    · cases h; exact ih h0 hm h1 e1
  | many0 m ih =>
    intro Γ env u s h0 hm h r v hv
    simp only [Mac.infer, Option.bind_eq_bind, Option.bind_eq_some_iff] at h
    obtain ⟨t, h1, h2⟩ := h
    cases h2
    obtain ⟨a, e1, rfl⟩ := map_inv hv
    exact .list fun v hv => (many0Loop_at (loop h0 hm fun a b => ih a b h1) wide _ _ _ _ e1).2 v hv (List.suffix_refl _)
  | separatedList sep m _ ih =>
    intro Γ env u s h0 hm h r v hv
    simp only [Mac.infer, Option.bind_eq_bind, Option.bind_eq_some_iff] at h
    obtain ⟨t, h1, h2⟩ := h
    cases h2
    obtain ⟨a, e1, rfl⟩ := map_inv hv
    exact .list fun v hv => (separatedList_at (suff sep env) (loop h0 hm fun a b => ih a b h1) wide _ _ _ e1).2 v hv (List.suffix_refl _)
  | separatedNonemptyList sep m _ ih =>
    intro Γ env u s h0 hm h r v hv
    simp only [Mac.infer, Option.bind_eq_bind, Option.bind_eq_some_iff] at h
    obtain ⟨t, h1, h2⟩ := h
    cases h2
    obtain ⟨a, e1, rfl⟩ := map_inv hv
    exact .list fun v hv => (separatedNonemptyList_at (suff sep env) (loop h0 hm fun a b => ih a b h1) wide _ _ _ e1).2 v hv (List.suffix_refl _)
  | terminated m k ih _ =>
    intro Γ env u s h0 hm h r v hv
    obtain ⟨i, a, e1, e2⟩ := seq_inv hv
    obtain ⟨b, e3, e4⟩ := map_inv e2
    subst e4
    exact widen (ih h0 hm h e1) (List.suffix_refl _) (suff k env _ _ _ e3)
  | condSome x m ih =>
    intro Γ env u s h0 hm h r v hv
    simp only [Mac.infer, Option.bind_eq_bind, Option.bind_eq_some_iff] at h
    obtain ⟨t, h1, h2⟩ := h
    cases h2
    obtain ⟨a, e1, rfl⟩ := map_inv hv
    refine ofOption_type fun v e => ?_
    subst e
    unfold Nom.cond at e1
    split at e1
    · obtain ⟨b, e2, e3⟩ := map_inv e1
      cases e3
      exact ih h0 hm h1 e2
    · cases e1
  | recognize m => intro Γ env u s h0 _ h r v hv; cases h; exact str (whole_recognize (suff m env)) h0 hv
  | tag t => intro Γ env u s h0 _ h r v hv; cases h; exact str whole_tag h0 hv
  | identTag t => intro Γ env u s h0 _ h r v hv; cases h; exact str whole_identTag h0 hv
  | takeUntil t => intro Γ env u s h0 _ h r v hv; cases h; exact str whole_takeUntil h0 hv
  | takeWhile c => intro Γ env u s h0 _ h r v hv; cases h; exact str whole_takeWhile h0 hv
  | takeWhile1 c => intro Γ env u s h0 _ h r v hv; cases h; exact str whole_takeWhile1 h0 hv
  | char c => intro Γ env u s h0 _ h r v hv; cases h; exact chr hv
  | oneOf cs => intro Γ env u s h0 _ h r v hv; cases h; exact chr hv

/-! ## Declarations -/

/-- Names and values, as in a struct. -/
structure Fits (is : List Item) (Q : RTy → Str → Str → Val → Prop) (S R : Str) (σ : Str → Option RTy) (Γ : Types)
    (vs : List (Str × Val)) : Prop where
  names : vs.map Prod.fst = Γ.map Prod.fst
  types : ∀ p ∈ Γ.zip vs, Traced is Q S R (p.1.2.subst σ) p.2.2

theorem Fits.nil {σ : Str → Option RTy} : Fits is Q S R σ [] [] := ⟨rfl, by simp⟩

theorem Fits.widen {R' : Str} {σ : Str → Option RTy} {Γ : Types} {vs : List (Str × Val)} (h : Fits is Q S R σ Γ vs) (hr : R' <:+ R) :
    Fits is Q S R' σ Γ vs := ⟨h.names, fun p hp => Traces.widen (h.types p hp) (List.suffix_refl _) hr⟩

theorem Fits.snoc {σ : Str → Option RTy} {Γ : Types} {vs : List (Str × Val)} (h : Fits is Q S R σ Γ vs) {x : Str}
    {t : RTy} {v : Val} (hv : Traced is Q S R (t.subst σ) v) : Fits is Q S R σ (Γ ++ [(x, t)]) (vs ++ [(x, v)]) := by
  have e : Γ.length = vs.length := by simpa using (congrArg List.length h.names).symm
  refine ⟨by simp [h.names], fun p hp => ?_⟩
  rw [List.zip_append e] at hp
  rcases List.mem_append.mp hp with hp | hp
  · exact h.types p hp
  · simp at hp; subst hp; exact hv

theorem Fits.models {σ : Str → Option RTy} {Γ : Types} {vs : List (Str × Val)} (h : Fits is Q S R σ Γ vs) :
    Models is Q S R σ Γ vs := by
  induction Γ generalizing vs with
  | nil => intro x t h; cases h
  | cons b Γ ih =>
    obtain ⟨y, u⟩ := b
    cases vs with
    | nil => have := h.names; simp at this
    | cons c vs =>
      obtain ⟨z, v⟩ := c
      have hn := h.names
      simp only [List.map_cons, List.cons.injEq] at hn
      obtain ⟨rfl, hn⟩ := hn
      exact (ih ⟨hn, fun p hp => h.types p (by simp [hp])⟩).cons (h.types ((z, u), (z, v)) (by simp))

theorem fields_sound {ds : List Decl} {us ps : List Str} {σ : Str → Option RTy} (hs : Sound is us σ)
    {w : RTy → P Char Val} (hw : ∀ t, Suff (w t))
    (hp : Parsers ds us ps is Q σ w) {D : RTy → Val}
    (hD : ∀ a p, ps = [a, p] → ∀ S R, Traced is Q S R ((RTy.path0 p).subst σ) (D (.path0 p))) {n : Str} : ∀ {fs : List Field} {Γ : Types}
    {env : Env} {s : Str}, s <:+ S → Fits is Q S s σ Γ env → checkFields ds us ps fs Γ = true → ∀ {r : Str} {v : Val},
    fields w D n fs env s = .ok r v →
    r <:+ s ∧ ∃ vs, v = .struct n vs ∧ Fits is Q S r σ (Γ ++ fs.map fun f => (f.name, f.type)) vs
  | [], Γ, env, s, _, he, _, r, v, h => by
    cases h
    exact ⟨List.suffix_refl _, env, rfl, by simpa using he⟩
  | ⟨x, t, i⟩ :: fs, Γ, env, s, h0, he, hc, r, v, h => by
    simp only [checkFields, Bool.and_eq_true] at hc
    have next {v' s'} (h' : s' <:+ s) (hv : Traced is Q S s' (t.subst σ) v') (h : fields w D n fs (env ++ [(x, v')]) s' = .ok r v) :
        r <:+ s ∧ ∃ vs, v = .struct n vs ∧ Fits is Q S r σ (Γ ++ (x, t) :: fs.map fun f => (f.name, f.type)) vs := by
      have := fields_sound hs hw hp hD (h'.trans h0) ((he.widen h').snoc hv) hc.2 h
      exact ⟨this.1.trans h', by simpa using this.2⟩
    cases i with
    | weedle =>
      obtain ⟨i, a, e1, e2⟩ := seq_inv h
      exact next (hw _ _ _ _ e1) (widen (hp.2.1 _ hc.1 _ _ _ e1) h0 (List.suffix_refl _)) e2
    | mac m =>
      obtain ⟨i, a, e1, e2⟩ := seq_inv h
      exact next (suff_mac hw m env _ _ _ e1) (mac_sound hs hp m h0 he.models (by simpa using hc.1) e1) e2
    | marker =>
      have h1 := hc.1
      simp only at h1
      split at h1
      · rename_i a p
        have : t = .path0 p := by simpa using h1
        subst this
        exact next (List.suffix_refl _) (hD a p rfl _ _) h
      · cases h1

theorem variants_inv {w : RTy → P Char Val} {n : Str} : ∀ {us : List (Str × RTy)} {s r : Str} {v : Val},
    variants w n us s = .ok r v → ∃ x t a, (x, t) ∈ us ∧ w t s = .ok r a ∧ v = .variant n x a
  | [], _, _, _, h => by cases h
  | (x, t) :: us, s, r, v, h => by
    rcases orElse_inv h with h | h
    · obtain ⟨a, h', rfl⟩ := map_inv h
      exact ⟨x, t, a, by simp, h', rfl⟩
    · obtain ⟨x, t, a, h1, h2, h3⟩ := variants_inv h
      exact ⟨x, t, a, by simp [h1], h2, h3⟩

theorem parser_sound {ds : List Decl} {us : List Str} {ts : List (Str × RTy)} (H : Checked ds us ts is) {w : RTy → P Char Val}
    (hwf : ∀ t, Suff (w t))
    (hw : ∀ t, okTy ds us [] t = true → ∀ s r v, w t s = .ok r v → Traced is Q s r t v)
    (hsp : ∀ s r v, w (.path0 c!"sp") s = .ok r v → Traced is Q s r (.path0 c!"&str") v) {T : RTy} {d : Decl} (hd : d ∈ ds)
    (hn : d.name = T.name)
    (hl : d.params.length = T.args.length) (hT : okTy ds us [] T = true ∨ T = .path0 c!"sp")
    (hq : T.name ≠ c!"sp" → ∀ s r v, d.parser w T.args s = .ok r v → r <:+ s ∧ Q T s r v) {s r : Str} {v : Val}
    (h : d.parser w T.args s = .ok r v) :
    Traced is Q s r (if T.name = c!"sp" then .path0 c!"&str" else T) v := by
  have hc := H.check d hd
  simp only [Decl.check, Bool.and_eq_true, decide_eq_true_eq, List.all_eq_true, Bool.not_eq_true', ← Bool.not_eq_true,
    List.contains_iff_mem] at hc
  obtain ⟨⟨hnd, hps⟩, hc⟩ := hc
  have hargs : ∀ u ∈ T.args, okTy ds us [] u = true := by
    rcases hT with h | h
    · exact okTy_args h
    · subst h; simp [RTy.args]
  have hs : Sound is us (assign d.params T.args) := by
    refine ⟨fun n hn => ⟨H.units n hn, assign_none (fun h => (hps n h).2 hn) _⟩, fun n hn => 
      assign_none (fun h => (hps n h).1 hn) _, H.option⟩
  have hs0 : Sound is us (assign [] T.args) :=
    ⟨fun n hn => ⟨H.units n hn, rfl⟩, fun n hn => rfl, H.option⟩
  have hp : Parsers ds us d.params is Q (assign d.params T.args) (fun t => w (t.subst (assign d.params T.args))) := by
    refine ⟨fun t => hwf _, fun t ht => hw _ (okTy_subst hl hargs ht), ?_⟩
    have : assign d.params T.args c!"sp" = none := hs.consts _ (by decide)
    simp only [RTy.subst, this]
    exact hsp
  have hp0 : Parsers ds us [] is Q (assign [] T.args) w :=
    ⟨hwf, fun t ht => by rw [subst_none]; exact hw t ht, hsp⟩
  have notsp (h : ∀ m, d ≠ .fn c!"sp" [] m) : ¬ T.name = c!"sp" := by
    intro e
    obtain ⟨m, hm⟩ := H.sp d hd (hn.trans e)
    exact h m hm
  have refl : ∀ {x : Str}, x <:+ x := List.suffix_refl _
  cases d with
  | struct n ps fs =>
    have hns := notsp (by simp)
    rw [if_neg hns]
    have hQ := hq hns _ _ _ h
    simp only [Bool.and_eq_true] at hc
    have hD : ∀ a p, ps = [a, p] → ∀ S R, Traced is Q S R ((RTy.path0 p).subst (assign ps T.args))
        ((fun t => marker (RTy.subst (assign ps T.args) t)) (.path0 p)) := by
      rintro a p rfl S R
      have hap : a ≠ p := by simpa [Decl.params] using hnd
      match T, hl, hT with
      | .path2 m b c, _, .inl hT =>
        have e : n = m := hn
        subst e
        simp only [okTy, Bool.and_eq_true, Bool.or_eq_true] at hT
        have h2 := hT.2.resolve_left (by simpa using hc.1)
        cases c with
        | path0 x =>
          simp only [Bool.and_eq_true, List.contains_iff_mem] at h2
          simp only [RTy.subst, assign, RTy.args, if_neg hap, if_true, Option.getD_some, marker]
          exact .token (H.units x h2.1)
        | _ => simp at h2
    obtain ⟨-, vs, rfl, hv⟩ := fields_sound (ps := ps) (σ := assign ps T.args) hs (fun _ => hwf _) hp hD refl Fits.nil hc.2 h
    have e : n = T.name := hn
    subst e
    have hi := H.has _ hd (.struct T.name ps (fs.map fun f => (f.name, f.type))) (by simp [Decl.lower])
    exact .struct hi hl (by simpa using hv.names) refl refl hQ.1 hQ.2 (by simpa using hv.types)
  | newtype n m =>
    have hns := notsp (by simp)
    have hQ := hq hns _ _ _ h
    have hT0 := RTy.eq_path0 (T := T) (by simpa [Decl.params] using hl.symm)
    rw [if_neg hns]
    have e : n = T.name := hn
    subst e
    obtain ⟨a, h', rfl⟩ := map_inv h
    simp only at hc
    split at hc
    · rename_i t ht
      have := mac_sound (ps := []) hs0 hp0 m refl Models.nil ht h'
      rw [subst_none] at this
      rw [hT0] at hQ ⊢
      exact .newtype (H.tuples _ (by simpa using hc)) refl refl hQ.1 hQ.2 this
    · cases hc
  | enum n vs =>
    have hns := notsp (by simp)
    have hQ := hq hns _ _ _ h
    have hT0 := RTy.eq_path0 (T := T) (by simpa [Decl.params] using hl.symm)
    rw [if_neg hns]
    have e : n = T.name := hn
    subst e
    simp only [List.all_eq_true] at hc
    obtain ⟨x, t, a, h1, h2, rfl⟩ := variants_inv h
    rw [hT0] at hQ ⊢
    exact .variant (H.has _ hd _ (by simp [Decl.lower])) h1 refl refl hQ.1 hQ.2 (hw _ (hc _ h1) _ _ _ h2)
  | alias n t =>
    have hns := notsp (by simp)
    have hQ := hq hns _ _ _ h
    have hT0 := RTy.eq_path0 (T := T) (by simpa [Decl.params] using hl.symm)
    rw [if_neg hns]
    have e : n = T.name := hn
    subst e
    rw [hT0] at hQ ⊢
    exact .alias (H.has _ hd _ (by simp [Decl.lower])) refl refl hQ.1 hQ.2 (hw _ hc _ _ _ h)
  | fn n ps m =>
    have e : n = T.name := hn
    subst e
    simp only [beq_iff_eq] at hc
    split
    · rename_i h'
      rw [if_pos h'] at hc
      have := mac_sound hs hp m refl Models.nil hc h
      simpa [RTy.subst, hs.consts c!"&str" (by decide)] using this
    · rename_i h'
      rw [if_neg h'] at hc
      cases ha : applied T.name ps with
      | none => exact absurd ha (applied_ne hl)
      | some t =>
        rw [ha] at hc
        have := mac_sound hs hp m refl Models.nil hc h
        simpa only [Decl.params, applied_subst ha rfl hl hnd] using this

theorem parse_sound {ds : List Decl} {us : List Str} {ts : List (Str × RTy)} (H : Checked ds us ts is)
    (hf : ∀ n T, Suff (parse ds n T)) (hQ : ∀ n T s r v, okTy ds us [] T = true → parse ds n T s = .ok r v → Q T s r v) : ∀ n,
    (∀ t, okTy ds us [] t = true → ∀ s r v, parse ds n t s = .ok r v → Traced is Q s r t v) ∧
    ∀ s r v, parse ds n (.path0 c!"sp") s = .ok r v → Traced is Q s r (.path0 c!"&str") v
  | 0 => ⟨fun _ _ _ _ _ h => (nomatch h), fun _ _ _ h => (nomatch h)⟩
  | n + 1 => by
    obtain ⟨ih1, ih2⟩ := parse_sound H hf hQ n
    constructor
    · intro t ht s r v h
      rcases okTy_arity ht with ⟨_, _, h⟩ | ⟨d, hd, hl⟩
      · simp at h
      · have e : ∀ s, parse ds (n + 1) t s = d.parser (parse ds n) t.args s := by intro s; simp only [parse, hd]
        have := parser_sound H (hf n) ih1 ih2 (find_mem hd).1 (find_mem hd).2 hl (.inl ht)
          (fun _ s r v h => by rw [← e] at h; exact ⟨hf _ _ _ _ _ h, hQ _ _ _ _ _ ht h⟩) (by rw [← e]; exact h)
        have hsp : ¬ t.name = c!"sp" := by
          intro e
          cases t with
          | path0 n => simp only [RTy.name] at e; subst e; simp [okTy] at ht
          | _ =>
            obtain ⟨m, hm⟩ := H.sp d (find_mem hd).1 ((find_mem hd).2.trans e)
            subst hm
            simp [RTy.args, Decl.params] at hl
        rwa [if_neg hsp] at this
    · intro s r v h
      cases hd : find ds c!"sp" with
      | none => simp only [parse, RTy.name, hd] at h; cases h
      | some d =>
        obtain ⟨m, hm⟩ := H.sp d (find_mem hd).1 (find_mem hd).2
        simp only [parse, RTy.name, hd] at h
        have := parser_sound H (hf n) ih1 ih2 (T := .path0 c!"sp") (find_mem hd).1 (find_mem hd).2 (by subst hm; rfl) (.inr rfl)
          (fun h => absurd rfl h) h
        simpa only [RTy.name, if_true] using this

/-! ## More nested calls do not change a result -/

/-- Where `p` returns, `q` returns the same. -/
def Below {α : Type} (p q : P Char α) : Prop := ∀ s, p s = .diverge ∨ q s = p s

section
variable {α β : Type}

theorem Below.refl {p : P Char α} : Below p p := fun _ => .inr rfl

theorem Below.seq {p q : P Char α} {f g : α → P Char β} (h : Below p q) (hf : ∀ a, Below (f a) (g a)) :
    Below (Nom.seq p f) (Nom.seq q g) := by
  intro s
  simp only [Nom.seq]
  rcases h s with h | h
  · simp [h]
  · rw [h]
    cases p s with
    | ok r a => exact hf a r
    | err e => exact .inr rfl
    | diverge => exact .inl rfl

theorem Below.map {p q : P Char α} {f : α → β} (h : Below p q) : Below (Nom.map f p) (Nom.map f q) := h.seq fun _ => .refl

theorem Below.orElse {p q p' q' : P Char α} (h : Below p q) (h' : Below p' q') : Below (Nom.orElse p p') (Nom.orElse q q') := by
  intro s
  simp only [Nom.orElse]
  rcases h s with h | h
  · simp [h]
  · rw [h]
    cases p s with
    | ok r a => exact .inr rfl
    | err e =>
      cases e with
      | error x k => exact h' s
      | _ => exact .inr rfl
    | diverge => exact .inl rfl

theorem Below.opt {p q : P Char α} (h : Below p q) : Below (Nom.opt p) (Nom.opt q) := by
  intro s
  simp only [Nom.opt]
  rcases h s with h | h
  · simp [h]
  · rw [h]; exact .inr rfl

theorem Below.recognize {p q : P Char α} (h : Below p q) : Below (Nom.recognize p) (Nom.recognize q) := by
  intro s
  simp only [Nom.recognize]
  rcases h s with h | h
  · simp [h]
  · rw [h]; exact .inr rfl

theorem consRes_below {a : α} {x y : Res Char (List α)} (h : x = .diverge ∨ y = x) :
    consRes a x = .diverge ∨ consRes a y = consRes a x := by
  rcases h with rfl | rfl
  · exact .inl rfl
  · exact .inr rfl

theorem Below.many0Loop {p q : P Char α} (h : Below p q) : ∀ n, Below (Nom.many0Loop p n) (Nom.many0Loop q n)
  | 0 => .refl
  | n + 1 => by
    intro s
    simp only [Nom.many0Loop]
    rcases h s with e | e
    · simp [e]
    · rw [e]
      cases p s with
      | ok r a =>
        simp only
        split
        · exact .inr rfl
        · exact consRes_below (Below.many0Loop h n r)
      | err e => cases e <;> exact .inr rfl
      | diverge => exact .inl rfl

theorem Below.sepLoop {p q : P Char α} {d e : P Char β} (hd : Below d e) (h : Below p q) :
    ∀ n, Below (Nom.sepLoop d p n) (Nom.sepLoop e q n)
  | 0 => .refl
  | n + 1 => by
    intro s
    simp only [Nom.sepLoop]
    rcases hd s with e | e
    · simp [e]
    · rw [e]
      cases d s with
      | ok r a =>
        simp only
        split
        · exact .inr rfl
        · rcases h r with e | e
          · simp [e]
          · rw [e]
            cases p r with
            | ok r' a =>
              simp only
              split
              · exact .inr rfl
              · exact consRes_below (Below.sepLoop hd h n r')
            | err e => cases e <;> exact .inr rfl
            | diverge => exact .inl rfl
      | err e => cases e <;> exact .inr rfl
      | diverge => exact .inl rfl

theorem Below.separatedList {p q : P Char α} {d e : P Char β} (hd : Below d e) (h : Below p q) :
    Below (Nom.separatedList d p) (Nom.separatedList e q) := by
  intro s
  simp only [Nom.separatedList]
  rcases h s with e | e
  · simp [e]
  · rw [e]
    cases p s with
    | ok r a =>
      simp only
      split
      · exact .inr rfl
      · exact consRes_below (Below.sepLoop hd h _ r)
    | err e => cases e <;> exact .inr rfl
    | diverge => exact .inl rfl

theorem Below.separatedNonemptyList {p q : P Char α} {d e : P Char β} (hd : Below d e) (h : Below p q) :
    Below (Nom.separatedNonemptyList d p) (Nom.separatedNonemptyList e q) := by
  intro s
  simp only [Nom.separatedNonemptyList]
  rcases h s with e | e
  · simp [e]
  · rw [e]
    cases p s with
    | ok r a =>
      simp only
      split
      · exact .inr rfl
      · exact consRes_below (Below.sepLoop hd h _ r)
    | err e => exact .inr rfl
    | diverge => exact .inl rfl

end

theorem mac_below {w w' : RTy → P Char Val} (hw : ∀ t, Below (w t) (w' t)) : ∀ (m : Mac) (env : Env), Below (m.run w env) (m.run w' env)
  | .weedle t, _ => hw t
  | .sp, _ => hw _
  | .bind x m k, env => (mac_below hw m env).seq fun v => by
    cases x with
    | none => exact mac_below hw k _
    | some x => exact mac_below hw k _
  | .ret e, env => .refl
  | .alt m k, env => (mac_below hw m env).orElse (mac_below hw k env)
  | .altEnd, _ => .refl
  | .map m x e, env => (mac_below hw m env).map
  | .opt m, env => (mac_below hw m env).opt.map
  | .many0 m, env => Below.map fun s => (mac_below hw m env).many0Loop _ s
  | .separatedList sep m, env => ((mac_below hw sep env).separatedList (mac_below hw m env)).map
  | .separatedNonemptyList sep m, env => ((mac_below hw sep env).separatedNonemptyList (mac_below hw m env)).map
  | .terminated m k, env => (mac_below hw m env).seq fun _ => (mac_below hw k env).seq fun _ => .refl
  | .condSome x m, env => by
    refine Below.map ?_
    unfold Nom.cond
    split
    · exact (mac_below hw m env).map
    · exact .refl
  | .recognize m, env => (mac_below hw m env).recognize.map
  | .tag t, _ => .refl
  | .identTag t, _ => .refl
  | .takeUntil t, _ => .refl
  | .takeWhile c, _ => .refl
  | .takeWhile1 c, _ => .refl
  | .char c, _ => .refl
  | .oneOf cs, _ => .refl

theorem fields_below {w w' : RTy → P Char Val} (hw : ∀ t, Below (w t) (w' t)) {D : RTy → Val} {n : Str} :
    ∀ (fs : List Field) (env : Env), Below (fields w D n fs env) (fields w' D n fs env)
  | [], _ => .refl
  | ⟨x, t, .weedle⟩ :: fs, env => (hw t).seq fun _ => fields_below hw fs _
  | ⟨x, _, .mac m⟩ :: fs, env => (mac_below hw m env).seq fun _ => fields_below hw fs _
  | ⟨x, t, .marker⟩ :: fs, env => fields_below hw fs _

theorem variants_below {w w' : RTy → P Char Val} (hw : ∀ t, Below (w t) (w' t)) {n : Str} :
    ∀ vs : List (Str × RTy), Below (variants w n vs) (variants w' n vs)
  | [] => .refl
  | (_, t) :: vs => (hw t).map.orElse (variants_below hw vs)

theorem parser_below {w w' : RTy → P Char Val} (hw : ∀ t, Below (w t) (w' t)) (args : List RTy) (d : Decl) :
    Below (d.parser w args) (d.parser w' args) := by
  cases d with
  | struct n ps fs => exact fields_below (fun _ => hw _) fs []
  | newtype n m => exact (mac_below hw m []).map
  | enum n vs => exact variants_below hw vs
  | «alias» n t => exact hw t
  | fn n ps m => exact mac_below (fun _ => hw _) m []

theorem parse_below {ds : List Decl} : ∀ (n : Nat) (T : RTy), Below (parse ds n T) (parse ds (n + 1) T)
  | 0, _ => fun _ => .inl rfl
  | n + 1, T => by
    rw [parse, parse]
    cases find ds T.name with
    | none => exact .refl
    | some d => exact parser_below (fun t => parse_below n t) T.args d

theorem parse_mono {ds : List Decl} {n : Nat} {T : RTy} {s r : Str} {v : Val} (h : parse ds n T s = .ok r v) {m : Nat} (hm : n ≤ m) :
    parse ds m T s = .ok r v := by
  induction hm with
  | refl => exact h
  | step _ ih =>
    rcases parse_below _ T s with e | e
    · rw [e] at ih; cases ih
    · rw [e, ih]

end Verif.Source.Traces
