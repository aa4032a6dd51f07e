import Verif.Source.TypeSound
import Verif.Source.Expand
import Verif.Source.Agree
import Verif.Source.DeriveProof

/-!
# The declarations of the crate are well typed

The definitions are checkers that the kernel evaluates on the items of the crate; they serve the proofs only and model
no code.
-/

namespace Verif.Source

set_option maxRecDepth 100000
set_option Elab.async false

def Item.unitName : Item → Option Str
  | .unit n => some n
  | _ => none

def Item.newtypeOf : Item → Option (Str × RTy)
  | .tuple n [] t => some (n, t)
  | _ => none

/-- The unit structs. -/
def unitNames : List Str := crateTypes.filterMap Item.unitName

/-- The structs with one unnamed field. -/
def newtypes : List (Str × RTy) := crateTypes.filterMap Item.newtypeOf

theorem decls_check : ∀ d ∈ decls, d.check decls unitNames newtypes = true := by
  have : (decls.all fun d => d.check decls unitNames newtypes) = true := by decide +kernel
  simpa using this

theorem sp_decl : ∀ d ∈ decls, d.name = c!"sp" → ∃ m, d = .fn c!"sp" [] m := by
  have : (decls.all fun d => d.name != c!"sp" || match d with
      | .fn _ ps _ => ps.isEmpty
      | _ => false) = true := by decide +kernel
  intro d hd e
  have := List.all_eq_true.mp this d hd
  cases d with
  | fn n ps m =>
    have e' : n = c!"sp" := e
    subst e'
    simp [Decl.name] at this
    exact ⟨m, by rw [this]⟩
  | _ => simp [e] at this

theorem no_option : ∀ ps fs, Item.struct c!"Option" ps fs ∉ crateItems := by
  intro ps fs h
  rcases (mem_crateItems _).mp h with (h | h) | ⟨d, hd, h⟩
  · cases h
  · cases types_inert _ h
  · have hd' : d = .fn c!"Option" [c!"T"] (.opt (.weedle (.path0 c!"T"))) := by
      refine eq_of_name names_nodup hd ?_ ?_
      · simp only [decls, commonDecls, commonDecls0, List.mem_append, List.mem_cons, true_or, or_true]
      · cases d <;> simp only [Decl.lower] at h
        case struct n ps' fs' => simp at h; rw [← h.1]; rfl
        case fn => split at h <;> simp at h
        all_goals simp at h
    subst hd'
    simp [Decl.lower] at h

theorem checked : Checked decls unitNames newtypes crateItems where
  check := decls_check
  tuples := by
    rintro ⟨n, t⟩ h
    obtain ⟨it, h1, h2⟩ := List.mem_filterMap.mp h
    refine (mem_crateItems _).mpr (.inl (.inr ?_))
    unfold Item.newtypeOf at h2
    split at h2
    · cases h2; exact h1
    · cases h2
  has d hd it h := (mem_crateItems _).mpr (.inr ⟨d, hd, h⟩)
  units := by
    intro n h
    obtain ⟨it, h1, h2⟩ := List.mem_filterMap.mp h
    refine (mem_crateItems _).mpr (.inl (.inr ?_))
    unfold Item.unitName at h2
    split at h2
    · cases h2; exact h1
    · cases h2
  option := no_option
  sp := sp_decl

theorem punct_unit : ∀ p, punctType p ∈ unitNames := by
  intro p; cases p <;> decide +kernel

theorem kw_unit (k : Kw) : kwType k ∈ unitNames := by
  have : (kws.all fun k => unitNames.contains (kwType k)) = true := by decide +kernel
  have := List.all_eq_true.mp this k (by cases k <;> decide)
  simpa using this

theorem okTy_of_wellFormed {T : RTy} (h : WellFormed decls T) : okTy decls unitNames [] T = true := by
  have key {n : Str} {k : Nat} (h : ∃ d ∈ decls, d.name = n ∧ d.params.length = k) : arity decls n = some k := by
    obtain ⟨d, hd, rfl, rfl⟩ := h
    simp only [arity]
    cases e : find decls d.name with
    | none => simp [find] at e; exact absurd rfl (e d hd)
    | some d' => simp [eq_of_name names_nodup (find_mem e).1 hd (find_mem e).2]
  induction T with
  | path0 n => simp only [okTy, key h.2]; simpa using h.1
  | path1 n t ih => simp only [okTy, key h.1, ih h.2]; simp
  | path2 n t u ih1 ih2 =>
    simp only [okTy, key h.1, ih1 h.2.1, ih2 h.2.2.1]
    by_cases hn : n = c!"(,)"
    · simp [hn]
    · rcases h.2.2.2 hn with ⟨p, rfl⟩ | ⟨k, rfl⟩
      · simpa using .inr (punct_unit p)
      · simpa using .inr (kw_unit k)
  | path3 n t u v ih1 ih2 ih3 => simp only [okTy, key h.1, ih1 h.2.1, ih2 h.2.2.1, ih3 h.2.2.2]; simp

/-! ## No type is declared twice -/

theorem eq_of_typeName : ∀ {is : List Item}, (is.filterMap Item.typeName).Nodup → ∀ it ∈ is, ∀ it' ∈ is, ∀ n,
    it.typeName = some n → it'.typeName = some n → it = it'
  | [], _, _, h, _, _, _, _, _ => by cases h
  | x :: is, hn, it, h, it', h', n, e, e' => by
    have key (y : Item) (hy : y ∈ is) (ey : y.typeName = some n) (ex : x.typeName = some n) : False := by
      rw [List.filterMap_cons_some ex] at hn
      exact (List.nodup_cons.mp hn).1 (List.mem_filterMap.mpr ⟨y, hy, ey⟩)
    rcases List.mem_cons.mp h with hx | hi
    · rcases List.mem_cons.mp h' with hx' | hi'
      · rw [hx, hx']
      · exact (key it' hi' e' (hx ▸ e)).elim
    · rcases List.mem_cons.mp h' with hx' | hi'
      · exact (key it hi e (hx' ▸ e')).elim
      · refine eq_of_typeName ?_ it hi it' hi' n e e'
        cases hx : x.typeName with
        | none => rwa [List.filterMap_cons_none hx] at hn
        | some m => rw [List.filterMap_cons_some hx] at hn; exact (List.nodup_cons.mp hn).2

theorem unique : Unique crateItems where
  uniq := eq_of_typeName (by decide +kernel)
  std := by
    have : (crateItems.all fun it => match it.typeName with
      | some n => !stdNames.contains n
      | none => true) = true := by decide +kernel
    intro it h n hn e
    have := List.all_eq_true.mp this it h
    simp only [e] at this
    simp_all
  variants := by
    have : (crateItems.all fun it => match it with
      | .enum _ vs => decide (vs.map Prod.fst).Nodup
      | _ => true) = true := by decide +kernel
    intro n vs h
    simpa using List.all_eq_true.mp this _ h

/-! ## Traits -/

def traitsIn (is : List Item) (n : Str) : List Str := is.flatMap fun it => match it with
  | .derive m trs => if sameStr m n then trs else []
  | _ => []

def derives? (is : List Item) (tr n : Str) : Bool := (traitsIn is n).any (sameStr tr)

/-- A decision procedure for `Implements`, where the parameters `ps` implement the trait. -/
def implements? (is : List Item) (as : List (Str × RTy)) (ps : List Str) (tr : Str) : Nat → RTy → Bool
  | 0, _ => false
  | k + 1, .path0 n => ps.contains n || [c!"()", c!"&str", c!"char", c!"bool"].contains n || derives? is tr n ||
    match lookup n as with
    | some t => !ps.contains n && implements? is as [] tr k t
    | none => false
  | k + 1, .path1 n t =>
    if n = c!"Option" then tr == c!"Default" || implements? is as ps tr k t else
    if n = c!"Vec" then tr == c!"Default" || (tr != c!"Copy" && implements? is as ps tr k t) else
    if n = c!"Box" then tr != c!"Copy" && implements? is as ps tr k t else
    derives? is tr n && implements? is as ps tr k t
  | k + 1, .path2 n t u => (n == c!"(,)" || derives? is tr n) && implements? is as ps tr k t && implements? is as ps tr k u
  | k + 1, .path3 n t u v => n == c!"(,,)" && implements? is as ps tr k t && implements? is as ps tr k u && implements? is as ps tr k v

theorem lookup_mem {α β : Type} [DecidableEq α] {a : α} {b : β} : ∀ {l : List (α × β)}, lookup a l = some b → (a, b) ∈ l
  | [], h => by cases h
  | (x, y) :: l, h => by
    simp only [lookup] at h
    split at h
    · cases h; subst_vars; simp
    · exact .tail _ (lookup_mem h)

theorem derives?_sound {is js : List Item} (hj : ∀ it ∈ js, it ∈ is) {tr n : Str} (h : derives? js tr n = true) : Derives is tr n := by
  obtain ⟨t, ht, h⟩ := List.any_eq_true.mp h
  cases sameStr_eq h
  obtain ⟨it, hi, h⟩ := List.mem_flatMap.mp ht
  split at h
  · split at h
    · rename_i e
      cases sameStr_eq e
      exact ⟨_, hj _ hi, h⟩
    · cases h
  · cases h

theorem implements?_sound {is js : List Item} (hj : ∀ it ∈ js, it ∈ is) {as : List (Str × RTy)}
    (ha : ∀ a ∈ as, .alias a.1 a.2 ∈ is) {tr : Str} : ∀ (k : Nat) (t : RTy) {ps : List Str} {σ : Str → Option RTy},
    (∀ x, x ∉ ps → σ x = none) → (∀ x ∈ ps, ∃ u, σ x = some u ∧ Implements is tr u) → implements? js as ps tr k t = true → 
    Implements is tr (t.subst σ)
  | 0, _, _, _, _, _, h => by cases h
  | k + 1, .path0 n, ps, σ, h1, h2, h => by
    simp only [implements?, Bool.or_eq_true, List.contains_iff_mem] at h
    by_cases hn : n ∈ ps
    · obtain ⟨u, hu, hi⟩ := h2 n hn
      simpa [RTy.subst, hu] using hi
    · simp only [RTy.subst, h1 n hn, Option.getD_none]
      rcases h with ((h | h) | h) | h
      · exact absurd h hn
      · exact .std h
      · exact .derived (derives?_sound hj h) (by simp [RTy.args])
      · split at h
        · rename_i t e
          simp only [Bool.and_eq_true] at h
          have := implements?_sound hj ha k t (ps := []) (σ := fun _ => none) (fun _ _ => rfl) (by simp) h.2
          have e' : t.subst (fun _ => none) = t := subst_none t []
          rw [e'] at this
          exact .alias (ha _ (lookup_mem e)) this
        · cases h
  | k + 1, .path1 n t, ps, σ, h1, h2, h => by
    simp only [implements?] at h
    simp only [RTy.subst]
    split at h
    · subst_vars
      simp only [Bool.or_eq_true, beq_iff_eq] at h
      rcases h with h | h
      · exact .optionDefault h
      · exact .option (implements?_sound hj ha k t h1 h2 h)
    split at h
    · subst_vars
      simp only [Bool.or_eq_true, beq_iff_eq, Bool.and_eq_true, bne_iff_ne] at h
      rcases h with h | h
      · exact .vecDefault h
      · exact .vec h.1 (implements?_sound hj ha k t h1 h2 h.2)
    split at h
    · subst_vars
      simp only [Bool.and_eq_true, bne_iff_ne] at h
      exact .box h.1 (implements?_sound hj ha k t h1 h2 h.2)
    · simp only [Bool.and_eq_true] at h
      exact .derived (derives?_sound hj h.1) (by simp [RTy.args]; exact implements?_sound hj ha k t h1 h2 h.2)
  | k + 1, .path2 n t u, ps, σ, h1, h2, h => by
    simp only [implements?, Bool.and_eq_true, Bool.or_eq_true, beq_iff_eq] at h
    simp only [RTy.subst]
    have ht := implements?_sound hj ha k t h1 h2 h.1.2
    have hu := implements?_sound hj ha k u h1 h2 h.2
    rcases h.1.1 with h | h
    · subst h; exact .pair ht hu
    · exact .derived (derives?_sound hj h) (by simp [RTy.args]; exact ⟨ht, hu⟩)
  | k + 1, .path3 n t u v, ps, σ, h1, h2, h => by
    simp only [implements?, Bool.and_eq_true, beq_iff_eq] at h
    simp only [RTy.subst]
    have ht := implements?_sound hj ha k t h1 h2 h.1.1.2
    have hu := implements?_sound hj ha k u h1 h2 h.1.2
    have hv := implements?_sound hj ha k v h1 h2 h.2
    rw [h.1.1.1]
    exact .triple ht hu hv

def Item.aliasOf : Item → Option (Str × RTy)
  | .alias n t => some (n, t)
  | _ => none

def aliases : List (Str × RTy) := decls.filterMap fun d => match d with
  | .alias n t => some (n, t)
  | _ => none

theorem types_mem : ∀ it ∈ crateTypes, it ∈ crateItems := fun it h => (mem_crateItems it).mpr (.inl (.inr h))

theorem aliases_mem : ∀ a ∈ aliases, .alias a.1 a.2 ∈ crateItems := by
  rintro ⟨n, t⟩ h
  obtain ⟨d, hd, h⟩ := List.mem_filterMap.mp h
  split at h
  · cases h; exact (mem_crateItems _).mpr (.inr ⟨_, hd, by simp [Decl.lower]⟩)
  · cases h

/-- The parameters and the components of a type. -/
def Item.parts : Item → Option (Str × List Str × List RTy)
  | .struct n ps fs => some (n, ps, fs.map Prod.snd)
  | .tuple n ps t => some (n, ps, [t])
  | .unit n => some (n, [], [])
  | .enum n vs => some (n, [], vs.map Prod.snd)
  | _ => none

theorem parts_of {is : List Item} {n : Str} {ps : List Str} {ts : List RTy} (h : Components is n ps ts) :
    ∃ it ∈ is, it.parts = some (n, ps, ts) := by
  cases h with
  | struct h => exact ⟨_, h, rfl⟩
  | tuple h => exact ⟨_, h, rfl⟩
  | unit h => exact ⟨_, h, rfl⟩
  | enum h => exact ⟨_, h, rfl⟩

theorem derive_mem {n : Str} {trs : List Str} (h : .derive n trs ∈ crateItems) : .derive n trs ∈ crateTypes := by
  rcases (mem_crateItems _).mp h with (h | h) | ⟨d, hd, h⟩
  · cases h
  · exact h
  · cases d <;> simp only [Decl.lower] at h
    case fn => split at h <;> simp at h
    all_goals simp at h

theorem sameStr_self : ∀ s : Str, sameStr s s = true
  | [] => rfl
  | c :: s => by simp [sameStr, sameChar, sameStr_self s]

def traitsOf (n : Str) : List Str := traitsIn crateTypes n

theorem mem_traitsOf {tr n : Str} : tr ∈ traitsOf n ↔ Derives crateItems tr n := by
  simp only [traitsOf, traitsIn, List.mem_flatMap]
  constructor
  · rintro ⟨it, h, ht⟩
    split at ht
    · split at ht
      · rename_i e
        cases sameStr_eq e
        exact ⟨_, types_mem _ h, ht⟩
      · cases ht
    · cases ht
  · rintro ⟨trs, h, ht⟩
    exact ⟨_, derive_mem h, by simpa [sameStr_self] using ht⟩

/-- All that derived implementations need is there. -/
def derivesCheck (it : Item) : Bool := match it.parts with
  | some (n, ps, ts) => (traitsOf n).all fun tr => derivable.contains tr && (supertraits tr).all (traitsOf n).contains &&
      ts.all (implements? crateTypes aliases ps tr 10)
  | none => true

theorem derives_check : ∀ it ∈ crateItems, derivesCheck it = true := by
  have : crateItems.all derivesCheck = true := by decide +kernel
  simpa using this

/-- The traits that all types have. -/
def commonTraits : List Str := [c!"Clone", c!"Debug", c!"Eq", c!"PartialEq", c!"Ord", c!"PartialOrd", c!"Hash"]

def traitsCheck (d : Decl) : Bool := commonTraits.all fun tr => match d.params with
  | [] => d.name == c!"sp" || implements? crateTypes aliases [] tr 10 (.path0 d.name)
  | [p] => implements? crateTypes aliases [p] tr 2 (.path1 d.name (.path0 p))
  | [p, q] => implements? crateTypes aliases [p, q] tr 2 (.path2 d.name (.path0 p) (.path0 q))
  | [p, q, r] => implements? crateTypes aliases [p, q, r] tr 2 (.path3 d.name (.path0 p) (.path0 q) (.path0 r))
  | _ => false

theorem traits_check : ∀ d ∈ decls, traitsCheck d = true := by
  have : decls.all traitsCheck = true := by decide +kernel
  simpa using this

theorem implements_common {tr : Str} (h : tr ∈ commonTraits) {T : RTy} (hT : WellFormed decls T) :
    Implements crateItems tr T := by
  have use {n : Str} {ps : List Str} {T : RTy} {t : RTy} (ha : applied n ps = some t) (hn : n = T.name)
      (hl : ps.length = T.args.length) (hp : ps.Nodup) (k : Nat) (hi : implements? crateTypes aliases ps tr k t = true)
      (hT : ∀ u ∈ T.args, Implements crateItems tr u) : Implements crateItems tr T := by
    have := implements?_sound types_mem aliases_mem k t (ps := ps) (σ := assign ps T.args) (fun x hx => assign_none hx _)
      (fun x hx => by obtain ⟨u, hu, e⟩ := assign_some hx hl; exact ⟨u, e, hT u hu⟩) hi
    rwa [applied_subst ha hn hl hp] at this
  have check {d : Decl} (hd : d ∈ decls) := List.all_eq_true.mp (traits_check d hd) tr h
  have nodup {d : Decl} (hd : d ∈ decls) : d.params.Nodup := by
    have := decls_check d hd
    simp only [Decl.check, Bool.and_eq_true, decide_eq_true_eq] at this
    exact this.1.1
  induction T with
  | path0 n =>
    obtain ⟨hs, d, hd, rfl, hl⟩ := hT
    have hc := check hd
    have hp : d.params = [] := List.eq_nil_of_length_eq_zero hl
    simp only [hp, Bool.or_eq_true, beq_iff_eq, hs, false_or] at hc
    exact use (ps := []) rfl rfl rfl (by simp) 10 hc (by simp [RTy.args])
  | path1 n t ih =>
    obtain ⟨⟨d, hd, rfl, hl⟩, ht⟩ := hT
    obtain ⟨p, hp⟩ := List.length_eq_one_iff.mp hl
    have hc := check hd
    have hn := nodup hd
    simp only [hp] at hc hn
    exact use (ps := [p]) rfl rfl rfl hn 2 hc (by simpa [RTy.args] using ih ht)
  | path2 n t u ih1 ih2 =>
    obtain ⟨⟨d, hd, rfl, hl⟩, ht, hu, _⟩ := hT
    have hc := check hd
    have hn := nodup hd
    match hp : d.params, hl with
    | [p, q], _ =>
      simp only [hp] at hc hn
      exact use (ps := [p, q]) rfl rfl rfl hn 2 hc (by simpa [RTy.args] using ⟨ih1 ht, ih2 hu⟩)
  | path3 n t u v ih1 ih2 ih3 =>
    obtain ⟨⟨d, hd, rfl, hl⟩, ht, hu, hv⟩ := hT
    have hc := check hd
    have hn := nodup hd
    match hp : d.params, hl with
    | [p, q, r], _ =>
      simp only [hp] at hc hn
      exact use (ps := [p, q, r]) rfl rfl rfl hn 2 hc (by simpa [RTy.args] using ⟨ih1 ht, ih2 hu, ih3 hv⟩)

theorem unit_default {n : Str} (h : .unit n ∈ crateItems) : Derives crateItems c!"Default" n := by
  have : (crateTypes.all fun it => match it with
    | .unit n => derives? crateTypes c!"Default" n
    | _ => true) = true := by decide +kernel
  have h' : .unit n ∈ crateTypes := by
    rcases (mem_crateItems _).mp h with (h | h) | ⟨d, hd, h⟩
    · cases h
    · exact h
    · cases d <;> simp only [Decl.lower] at h
      case fn => split at h <;> simp at h
      all_goals simp at h
  exact derives?_sound types_mem (List.all_eq_true.mp this _ h')

end Verif.Source
