import Verif.Proof.Knot
import Verif.Source.Table

/-!
# Agreement of a parser of the source and a parser of the model

The definitions serve the proof only, they model no code.
-/

namespace Verif.Source
open Nom

section
variable {α β γ : Type}

/-- With enough nested calls, `p` on `s` is `q` on `s`, up to what `V` and `tr` make of the values. -/
def Conv {ι : Type} (V : ι → γ) (p : Nat → P Char ι) (q : P Char α) (tr : α → γ) (s : Str) : Prop :=
  ∃ N, ∀ n ≥ N, resMap V (p n s) = resMap tr (q s)

variable {V : Val → γ} {p p' : Nat → P Char Val} {q q' : P Char α} {tr : α → γ} {s : Str} {δ : Type}

theorem conv_refl (h : ∀ n, ∀ s, resMap V (p n s) = resMap tr (q s)) : Conv V p q tr s := ⟨0, fun n _ => h n s⟩

theorem Conv.post (f : γ → δ) (h : Conv V p q tr s) : Conv (fun v => f (V v)) p q (fun a => f (tr a)) s := by
  obtain ⟨N, h⟩ := h
  refine ⟨N, fun n hn => ?_⟩
  have h := h n hn
  generalize p n s = x at h
  generalize q s = y at h
  cases x <;> cases y <;> simp_all [resMap]

theorem Conv.unit (h : Conv V p q tr s) : Conv (fun _ => ()) p q (fun _ => ()) s := h.post fun _ => ()

theorem Conv.congr {V' : Val → δ} {tr' : α → δ} {p : Nat → P Char Val} {q : P Char α} {tr : α → Val}
    (h : Conv id p q tr s) (e : ∀ a, V' (tr a) = tr' a) : Conv V' p q tr' s := by
  have := h.post V'
  simpa [e] using this

theorem Conv.of_eq (h : Conv V p q tr s) (e : q' s = q s) : Conv V p q' tr s := by
  obtain ⟨N, h⟩ := h
  exact ⟨N, fun n hn => by rw [h n hn, e]⟩

theorem conv_ret {v : Val} {a : α} (h : V v = tr a) : Conv V (fun _ => Nom.ret v) (Nom.ret a) tr s :=
  conv_refl fun _ s => by simp [Nom.ret, resMap, h]

/-- a continuation that looks at the value -/
theorem conv_seq {t : β → Val} {p : Nat → P Char Val} {q : P Char β} {k : Nat → Val → P Char Val} {f : β → P Char α}
    (h : Conv id p q t s) (h' : ∀ r a, q s = .ok r a → Conv V (fun n => k n (t a)) (f a) tr r) :
    Conv V (fun n => seq (p n) (k n)) (seq q f) tr s := by
  obtain ⟨N, h⟩ := h
  cases e : q s with
  | ok r a =>
    obtain ⟨N', h'⟩ := h' r a e
    refine ⟨max N N', fun n hn => ?_⟩
    have h1 := h n (by omega)
    have h2 := h' n (by omega)
    rw [e] at h1
    cases e1 : p n s <;> simp [e1, resMap] at h1
    obtain ⟨rfl, rfl⟩ := h1
    simpa [seq, e, e1] using h2
  | err x =>
    refine ⟨N, fun n hn => ?_⟩
    have h1 := h n hn
    rw [e] at h1
    cases e1 : p n s <;> simp [e1, resMap] at h1
    simp [seq, e, e1, resMap, h1]
  | diverge =>
    refine ⟨N, fun n hn => ?_⟩
    have h1 := h n hn
    rw [e] at h1
    cases e1 : p n s <;> simp [e1, resMap] at h1
    simp [seq, e, e1, resMap]

/-- a continuation that does not look at the value -/
theorem conv_seq' {p : Nat → P Char Val} {q : P Char β} {k : Nat → P Char Val} {f : β → P Char α}
    (h : Conv (fun _ => ()) p q (fun _ => ()) s) (h' : ∀ r a, q s = .ok r a → Conv V k (f a) tr r) :
    Conv V (fun n => seq (p n) fun _ => k n) (seq q f) tr s := by
  obtain ⟨N, h⟩ := h
  cases e : q s with
  | ok r a =>
    obtain ⟨N', h'⟩ := h' r a e
    refine ⟨max N N', fun n hn => ?_⟩
    have h1 := h n (by omega)
    have h2 := h' n (by omega)
    rw [e] at h1
    cases e1 : p n s <;> simp [e1, resMap] at h1
    obtain rfl := h1
    simpa [seq, e, e1] using h2
  | err x =>
    refine ⟨N, fun n hn => ?_⟩
    have h1 := h n hn
    rw [e] at h1
    cases e1 : p n s <;> simp [e1, resMap] at h1
    simp [seq, e, e1, resMap, h1]
  | diverge =>
    refine ⟨N, fun n hn => ?_⟩
    have h1 := h n hn
    rw [e] at h1
    cases e1 : p n s <;> simp [e1, resMap] at h1
    simp [seq, e, e1, resMap]

theorem conv_mapL {ι κ : Type} {V : κ → γ} {p : Nat → P Char ι} {F : ι → κ} (h : Conv (fun v => V (F v)) p q tr s) : Conv V (fun n => Nom.map F (p n)) q tr s := by
  obtain ⟨N, h⟩ := h
  refine ⟨N, fun n hn => ?_⟩
  rw [← h n hn]
  simp only [Nom.map, seq, Nom.ret]
  cases p n s <;> rfl

theorem conv_mapR {q : P Char β} {f : β → α} (h : Conv V p q (fun a => tr (f a)) s) : Conv V p (Nom.map f q) tr s := by
  obtain ⟨N, h⟩ := h
  refine ⟨N, fun n hn => ?_⟩
  rw [h n hn]
  simp only [Nom.map, seq, Nom.ret]
  cases q s <;> rfl

theorem conv_orElse (h : Conv V p q tr s) (h' : Conv V p' q' tr s) :
    Conv V (fun n => orElse (p n) (p' n)) (orElse q q') tr s := by
  obtain ⟨N, h⟩ := h
  obtain ⟨N', h'⟩ := h'
  refine ⟨max N N', fun n hn => ?_⟩
  have h1 := h n (by omega)
  have h2 := h' n (by omega)
  unfold orElse
  cases e : q s with
  | err x => cases x <;> (cases e1 : p n s <;> simp_all [resMap]) <;> subst h1 <;> simp_all
  | ok r a => cases e1 : p n s <;> simp_all [resMap]
  | diverge => cases e1 : p n s <;> simp_all [resMap]

theorem conv_altEnd : Conv V (fun _ => altEnd) altEnd tr s := conv_refl fun _ _ => rfl

theorem conv_opt {V0 : Val → δ} {tr0 : β → δ} {q : P Char β} {tr : Option β → γ} (h : Conv V0 p q tr0 s)
    (e : ∀ v a, V0 v = tr0 a → V (.some v) = tr (some a)) (e' : V .none = tr none) :
    Conv V (fun n => Nom.map Val.ofOption (Nom.opt (p n))) (Nom.opt q) tr s := by
  obtain ⟨N, h⟩ := h
  refine ⟨N, fun n hn => ?_⟩
  have h1 := h n hn
  simp only [Nom.opt, Nom.map, seq, Nom.ret]
  cases eq : q s with
  | err x =>
    cases x <;> (cases e1 : p n s <;> simp_all [resMap]) <;> subst h1 <;> simp_all [Val.ofOption]
  | ok r a =>
    cases e1 : p n s <;> simp_all [resMap]
    exact e _ _ h1.2
  | diverge => cases e1 : p n s <;> simp_all [resMap]

/-! ## Repetition -/

theorem resMap_consRes {f : α → γ} {a : α} {x : Res Char (List α)} :
    resMap (List.map f) (consRes a x) = consRes (f a) (resMap (List.map f) x) := by
  cases x <;> rfl

theorem resMap_list {f : α → γ} {g : β → γ} {x : Res Char (List α)} {y : Res Char (List β)} {F : List α → δ}
    {G : List β → δ} (h : resMap (List.map f) x = resMap (List.map g) y)
    (e : ∀ as bs, as.map f = bs.map g → F as = G bs) : resMap F x = resMap G y := by
  cases x <;> cases y <;> simp_all [resMap]
  exact e _ _ h.2

/-- `P` holds of all rests of `s`. -/
def Below (P : Str → Prop) (s : Str) : Prop := ∀ r, r.length ≤ s.length → P r

theorem Below.self {P : Str → Prop} (h : Below P s) : P s := h s (Nat.le_refl _)

theorem Below.mono {P : Str → Prop} {r : Str} (h : Below P s) (hr : r.length ≤ s.length) : Below P r :=
  fun r' h' => h r' (by omega)

/-- A parser whose remainders are not longer than its inputs -/
def Short (q : P Char α) : Prop := ∀ s r a, q s = .ok r a → r.length ≤ s.length

theorem conv_many0Loop {V0 : Val → δ} {tr0 : β → δ} {q : P Char β} (hq : Short q) :
    ∀ m s, Below (Conv V0 p q tr0) s →
      ∃ N, ∀ n ≥ N, resMap (List.map V0) (many0Loop (p n) m s) = resMap (List.map tr0) (many0Loop q m s) := by
  intro m
  induction m with
  | zero => exact fun s _ => ⟨0, fun _ _ => rfl⟩
  | succ m ih =>
    intro s h
    obtain ⟨N, h1⟩ := h.self
    cases e : q s with
    | ok r a =>
      obtain ⟨N', h2⟩ := ih r (h.mono (hq s r a e))
      refine ⟨max N N', fun n hn => ?_⟩
      have h1 := h1 n (by omega)
      have h2 := h2 n (by omega)
      simp only [many0Loop, e]
      rw [e] at h1
      cases e1 : p n s <;> simp [e1, resMap] at h1
      obtain ⟨rfl, h1⟩ := h1
      dsimp only
      split
      · rfl
      · rw [resMap_consRes, resMap_consRes, h1, h2]
    | err x =>
      refine ⟨N, fun n hn => ?_⟩
      have h1 := h1 n hn
      rw [e] at h1
      simp only [many0Loop, e]
      cases e1 : p n s <;> simp [e1, resMap] at h1
      rw [h1]
      cases x <;> rfl
    | diverge =>
      refine ⟨N, fun n hn => ?_⟩
      have h1 := h1 n hn
      rw [e] at h1
      simp only [many0Loop, e]
      cases e1 : p n s <;> simp [e1, resMap] at h1
      rfl

theorem conv_many0 {V0 : Val → δ} {tr0 : β → δ} {q : P Char β} {tr : List β → γ} (hq : Short q)
    (h : Below (Conv V0 p q tr0) s) (e : ∀ vs as, vs.map V0 = as.map tr0 → V (.list vs) = tr as) :
    Conv V (fun n => Nom.map Val.list (Nom.many0 (p n))) (Nom.many0 q) tr s := by
  apply conv_mapL
  obtain ⟨N, h⟩ := conv_many0Loop hq (s.length + 1) s h
  exact ⟨N, fun n hn => resMap_list (h n hn) e⟩

theorem conv_sepLoop {ε : Type} {V0 : Val → δ} {tr0 : β → δ} {q : P Char β} {ps : Nat → P Char Val} {qs : P Char ε}
    (hs : Short qs) (hq : Short q) :
    ∀ m s, Below (Conv (fun _ => ()) ps qs fun _ => ()) s → Below (Conv V0 p q tr0) s →
      ∃ N, ∀ n ≥ N, resMap (List.map V0) (sepLoop (ps n) (p n) m s) = resMap (List.map tr0) (sepLoop qs q m s) := by
  intro m
  induction m with
  | zero => exact fun s _ _ => ⟨0, fun _ _ => rfl⟩
  | succ m ih =>
    intro s hb h
    obtain ⟨N, h1⟩ := hb.self
    cases e : qs s with
    | ok r b =>
      have hr := hs s r b e
      obtain ⟨N', h2⟩ := (h.mono hr).self
      cases e' : q r with
      | ok r' a =>
        have hr' := hq r r' a e'
        obtain ⟨N'', h3⟩ := ih r' (hb.mono (by omega)) (h.mono (by omega))
        refine ⟨max N (max N' N''), fun n hn => ?_⟩
        have h1 := h1 n (by omega)
        have h2 := h2 n (by omega)
        have h3 := h3 n (by omega)
        simp only [sepLoop, e]
        rw [e] at h1
        cases e1 : ps n s <;> simp [e1, resMap] at h1
        obtain rfl := h1.symm
        dsimp only
        split
        · rfl
        · rw [e'] at h2 ⊢
          cases e2 : p n r <;> simp [e2, resMap] at h2
          obtain ⟨rfl, h2⟩ := h2
          dsimp only
          split
          · rfl
          · rw [resMap_consRes, resMap_consRes, h2, h3]
      | err x =>
        refine ⟨max N N', fun n hn => ?_⟩
        have h1 := h1 n (by omega)
        have h2 := h2 n (by omega)
        simp only [sepLoop, e]
        rw [e] at h1
        cases e1 : ps n s <;> simp [e1, resMap] at h1
        obtain rfl := h1.symm
        dsimp only
        split
        · rfl
        · rw [e'] at h2 ⊢
          cases e2 : p n r <;> simp [e2, resMap] at h2
          rw [h2]
          cases x <;> rfl
      | diverge =>
        refine ⟨max N N', fun n hn => ?_⟩
        have h1 := h1 n (by omega)
        have h2 := h2 n (by omega)
        simp only [sepLoop, e]
        rw [e] at h1
        cases e1 : ps n s <;> simp [e1, resMap] at h1
        obtain rfl := h1.symm
        dsimp only
        split
        · rfl
        · rw [e'] at h2 ⊢
          cases e2 : p n r <;> simp [e2, resMap] at h2
          rfl
    | err x =>
      refine ⟨N, fun n hn => ?_⟩
      have h1 := h1 n hn
      rw [e] at h1
      simp only [sepLoop, e]
      cases e1 : ps n s <;> simp [e1, resMap] at h1
      rw [h1]
      cases x <;> rfl
    | diverge =>
      refine ⟨N, fun n hn => ?_⟩
      have h1 := h1 n hn
      rw [e] at h1
      simp only [sepLoop, e]
      cases e1 : ps n s <;> simp [e1, resMap] at h1
      rfl

section
variable {ε : Type} {V0 : Val → δ} {tr0 : β → δ} {q : P Char β} {ps : Nat → P Char Val} {qs : P Char ε}
  {tr : List β → γ}

theorem conv_separatedList (hs : Short qs) (hq : Short q) (hb : Below (Conv (fun _ => ()) ps qs fun _ => ()) s)
    (h : Below (Conv V0 p q tr0) s) (e : ∀ vs as, vs.map V0 = as.map tr0 → V (.list vs) = tr as) :
    Conv V (fun n => Nom.map Val.list (Nom.separatedList (ps n) (p n))) (Nom.separatedList qs q) tr s := by
  apply conv_mapL
  obtain ⟨N, h1⟩ := h.self
  suffices H : ∃ N, ∀ n ≥ N, resMap (List.map V0) (Nom.separatedList (ps n) (p n) s) =
      resMap (List.map tr0) (Nom.separatedList qs q s) from
    H.elim fun N h => ⟨N, fun n hn => resMap_list (h n hn) e⟩
  cases e : q s with
  | ok r a =>
    have hr := hq s r a e
    obtain ⟨N', h2⟩ := conv_sepLoop hs hq (r.length + 1) r (hb.mono hr) (h.mono hr)
    refine ⟨max N N', fun n hn => ?_⟩
    have h1 := h1 n (by omega)
    have h2 := h2 n (by omega)
    simp only [Nom.separatedList, e]
    rw [e] at h1
    cases e1 : p n s <;> simp [e1, resMap] at h1
    obtain ⟨rfl, h1⟩ := h1
    dsimp only
    split
    · rfl
    · rw [resMap_consRes, resMap_consRes, h1, h2]
  | err x =>
    refine ⟨N, fun n hn => ?_⟩
    have h1 := h1 n hn
    rw [e] at h1
    simp only [Nom.separatedList, e]
    cases e1 : p n s <;> simp [e1, resMap] at h1
    rw [h1]
    cases x <;> rfl
  | diverge =>
    refine ⟨N, fun n hn => ?_⟩
    have h1 := h1 n hn
    rw [e] at h1
    simp only [Nom.separatedList, e]
    cases e1 : p n s <;> simp [e1, resMap] at h1
    rfl

theorem conv_separatedNonemptyList (hs : Short qs) (hq : Short q)
    (hb : Below (Conv (fun _ => ()) ps qs fun _ => ()) s)
    (h : Below (Conv V0 p q tr0) s) (e : ∀ vs as, vs.map V0 = as.map tr0 → V (.list vs) = tr as) :
    Conv V (fun n => Nom.map Val.list (Nom.separatedNonemptyList (ps n) (p n))) (Nom.separatedNonemptyList qs q) tr s := by
  apply conv_mapL
  obtain ⟨N, h1⟩ := h.self
  suffices H : ∃ N, ∀ n ≥ N, resMap (List.map V0) (Nom.separatedNonemptyList (ps n) (p n) s) =
      resMap (List.map tr0) (Nom.separatedNonemptyList qs q s) from
    H.elim fun N h => ⟨N, fun n hn => resMap_list (h n hn) e⟩
  cases e : q s with
  | ok r a =>
    have hr := hq s r a e
    obtain ⟨N', h2⟩ := conv_sepLoop hs hq (r.length + 1) r (hb.mono hr) (h.mono hr)
    refine ⟨max N N', fun n hn => ?_⟩
    have h1 := h1 n (by omega)
    have h2 := h2 n (by omega)
    simp only [Nom.separatedNonemptyList, e]
    rw [e] at h1
    cases e1 : p n s <;> simp [e1, resMap] at h1
    obtain ⟨rfl, h1⟩ := h1
    dsimp only
    split
    · rfl
    · rw [resMap_consRes, resMap_consRes, h1, h2]
  | err x =>
    refine ⟨N, fun n hn => ?_⟩
    have h1 := h1 n hn
    rw [e] at h1
    simp only [Nom.separatedNonemptyList, e]
    cases e1 : p n s <;> simp [e1, resMap] at h1
    rw [h1]
    cases x <;> rfl
  | diverge =>
    refine ⟨N, fun n hn => ?_⟩
    have h1 := h1 n hn
    rw [e] at h1
    simp only [Nom.separatedNonemptyList, e]
    cases e1 : p n s <;> simp [e1, resMap] at h1
    rfl

end

theorem conv_recognize {q : P Char β} {tr : Str → γ} (h : Conv (fun _ => ()) p q (fun _ => ()) s)
    (e : ∀ a, V (.str a) = tr a) : Conv V (fun n => Nom.map Val.str (Nom.recognize (p n))) (Nom.recognize q) tr s := by
  apply conv_mapL
  obtain ⟨N, h⟩ := h
  refine ⟨N, fun n hn => ?_⟩
  have h1 := h n hn
  simp only [Nom.recognize]
  cases e1 : q s with
  | ok r a =>
    rw [e1] at h1
    cases e2 : p n s <;> simp [e2, resMap] at h1
    subst h1
    simp [resMap, e]
  | err x =>
    rw [e1] at h1
    cases e2 : p n s <;> simp [e2, resMap] at h1
    subst h1
    rfl
  | diverge =>
    rw [e1] at h1
    cases e2 : p n s <;> simp [e2, resMap] at h1
    rfl

/-- A parser without calls -/
theorem conv_prim {q : P Char β} {F : β → Val} {tr : β → γ} (e : ∀ a, V (F a) = tr a) :
    Conv V (fun _ => Nom.map F q) q tr s := by
  refine conv_refl fun _ s => ?_
  simp only [Nom.map, seq, Nom.ret]
  cases q s <;> simp [resMap, e]

/-! ## Declarations -/

theorem conv_step {T : RTy} {d : Decl} (hd : find decls T.name = some d)
    (h : Conv V (fun n => d.parser (parse decls n) T.args) q tr s) : Conv V (fun n => parse decls n T) q tr s := by
  obtain ⟨N, h⟩ := h
  refine ⟨N + 1, fun n hn => ?_⟩
  obtain ⟨m, rfl⟩ : ∃ m, n = m + 1 := ⟨n - 1, by omega⟩
  rw [← h m (by omega)]
  simp only [parse, hd]

variable {w : Nat → RTy → P Char Val} {d : RTy → Val} {nm x : Str} {t : RTy} {fs : List Field} {env : Env} {m : Mac}

theorem conv_fieldsNil {a : α} (h : V (.struct nm env) = tr a) : Conv V (fun n => fields (w n) d nm [] env) (Nom.ret a) tr s :=
  conv_ret h

theorem conv_marker (h : Conv V (fun n => fields (w n) d nm fs (env ++ [(x, d t)])) q tr s) :
    Conv V (fun n => fields (w n) d nm (⟨x, t, .marker⟩ :: fs) env) q tr s := h

theorem conv_field {tr0 : β → Val} {q : P Char β} {f : β → P Char α} (h : Conv id (fun n => w n t) q tr0 s)
    (h' : ∀ r a, q s = .ok r a → Conv V (fun n => fields (w n) d nm fs (env ++ [(x, tr0 a)])) (f a) tr r) :
    Conv V (fun n => fields (w n) d nm (⟨x, t, .weedle⟩ :: fs) env) (seq q f) tr s :=
  conv_seq (k := fun n v => fields (w n) d nm fs (env ++ [(x, v)])) h h'

theorem conv_fieldMac {tr0 : β → Val} {q : P Char β} {f : β → P Char α} (h : Conv id (fun n => m.run (w n) env) q tr0 s)
    (h' : ∀ r a, q s = .ok r a → Conv V (fun n => fields (w n) d nm fs (env ++ [(x, tr0 a)])) (f a) tr r) :
    Conv V (fun n => fields (w n) d nm (⟨x, t, .mac m⟩ :: fs) env) (seq q f) tr s :=
  conv_seq (k := fun n v => fields (w n) d nm fs (env ++ [(x, v)])) h h'

theorem conv_variant {vs : List (Str × RTy)} (h : Conv (fun v => V (.variant nm x v)) (fun n => w n t) q tr s)
    (h' : Conv V (fun n => variants (w n) nm vs) q' tr s) :
    Conv V (fun n => variants (w n) nm ((x, t) :: vs)) (orElse q q') tr s :=
  conv_orElse (conv_mapL h) h'

end

end Verif.Source
