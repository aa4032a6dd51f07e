import Verif.Source.Clone
import Verif.Source.DebugProof

/-! # Copies and default values: proofs -/

namespace Verif.Source.Cloned
open Printed

mutual

theorem clone_eq : ∀ v : Val, v.clone = v
  | .unit | .bool _ | .char _ | .str _ | .token _ | .none => by simp only [Val.clone]
  | .pair a b => by rw [Val.clone, clone_eq a, clone_eq b]
  | .triple a b c => by rw [Val.clone, clone_eq a, clone_eq b, clone_eq c]
  | .some a => by rw [Val.clone, clone_eq a]
  | .list as => by rw [Val.clone, cloneList_eq as]
  | .box a => by rw [Val.clone, clone_eq a]
  | .struct n as => by rw [Val.clone, cloneFields_eq as]
  | .newtype n a => by rw [Val.clone, clone_eq a]
  | .variant n x a => by rw [Val.clone, clone_eq a]

theorem cloneList_eq : ∀ as : List Val, cloneList as = as
  | [] => by rw [cloneList]
  | a :: as => by rw [cloneList, clone_eq a, cloneList_eq as]

theorem cloneFields_eq : ∀ as : List (Str × Val), cloneFields as = as
  | [] => by rw [cloneFields]
  | (x, a) :: as => by rw [cloneFields, clone_eq a, cloneFields_eq as]

end

theorem _root_.Verif.Source.DefaultOf.hasType {is : List Item} {T : RTy} {v : Val} (h : DefaultOf is T v) : HasType is T v := by
  induction h with
  | unit => exact .unit
  | str => exact .str _
  | char => exact .char _
  | bool => exact .bool _
  | option => exact .none
  | vec => exact .list (by simp)
  | box _ ih => exact .box ih
  | pair _ _ ih ih' => exact .pair ih ih'
  | triple _ _ _ ih ih' ih'' => exact .triple ih ih' ih''
  | token _ h => exact .token h
  | newtype _ h _ ih => exact .newtype h ih
  | struct _ h hl hn _ ih => exact .struct h hl hn ih
  | «alias» h _ ih => exact .alias h ih

/-- Nothing in the value was chosen. -/
inductive Blank : Val → Prop where
  | unit : Blank .unit
  | str : Blank (.str [])
  | char : Blank (.char '\x00')
  | bool : Blank (.bool false)
  | none : Blank .none
  | list : Blank (.list [])
  | token {n : Str} : Blank (.token n)
  | box {a : Val} : Blank a → Blank (.box a)
  | pair {a b : Val} : Blank a → Blank b → Blank (.pair a b)
  | triple {a b c : Val} : Blank a → Blank b → Blank c → Blank (.triple a b c)
  | newtype {n : Str} {a : Val} : Blank a → Blank (.newtype n a)
  | struct {n : Str} {as : List (Str × Val)} : (∀ a ∈ as, Blank a.2) → Blank (.struct n as)

theorem _root_.Verif.Source.DefaultOf.blank {is : List Item} {T : RTy} {v : Val} (h : DefaultOf is T v) : Blank v := by
  induction h with
  | unit => exact .unit
  | str => exact .str
  | char => exact .char
  | bool => exact .bool
  | option => exact .none
  | vec => exact .list
  | box _ ih => exact .box ih
  | pair _ _ ih ih' => exact .pair ih ih'
  | triple _ _ _ ih ih' ih'' => exact .triple ih ih' ih''
  | token => exact .token
  | newtype _ _ _ ih => exact .newtype ih
  | @struct T ps fs vs _ h hl hn _ ih =>
    refine .struct fun a ha => ?_
    obtain ⟨i, hi, rfl⟩ := List.mem_iff_getElem.mp ha
    have e : fs.length = vs.length := by simpa using (congrArg List.length hn).symm
    have h1 : (fs[i]'(by omega), vs[i]) ∈ fs.zip vs := List.mem_iff_getElem.mpr ⟨i, by simp; omega, by simp⟩
    exact ih _ h1
  | «alias» h _ ih => exact ih

theorem fields_blank : ∀ {as bs : List (Str × Val)}, (∀ q ∈ as.zip bs, Blank q.1.2 → Blank q.2.2 → q.1.2 = q.2.2) →
    as.map Prod.fst = bs.map Prod.fst → (∀ a ∈ as, Blank a.2) → (∀ b ∈ bs, Blank b.2) → as = bs
  | [], [], _, _, _, _ => rfl
  | (x, a) :: as, (y, b) :: bs, hs, hl, ha, hb => by
    simp only [List.map_cons, List.cons.injEq] at hl
    obtain ⟨rfl, hl⟩ := hl
    have e := hs ((x, a), (x, b)) (by simp) (ha (x, a) (by simp)) (hb (x, b) (by simp))
    obtain rfl : a = b := e
    rw [fields_blank (fun q hq => hs q (by simp [hq])) hl (fun a h => ha a (List.mem_cons_of_mem _ h))
      fun b h => hb b (List.mem_cons_of_mem _ h)]
  | [], _ :: _, _, hl, _, _ => by simp at hl
  | _ :: _, [], _, hl, _, _ => by simp at hl

theorem blank_unique {is : List Item} {a b : Val} (h : Twins is a b) (ha : Blank a) (hb : Blank b) : a = b := by
  induction h with
  | unit | none | token => rfl
  | str => cases ha; cases hb; rfl
  | char => cases ha; cases hb; rfl
  | bool => cases ha; cases hb; rfl
  | noneSome => cases hb
  | someNone => cases ha
  | some => cases ha
  | list => cases ha; cases hb; rfl
  | box _ ih => cases ha; cases hb; rw [ih ‹_› ‹_›]
  | pair _ _ ih ih' => cases ha; cases hb; rw [ih ‹_› ‹_›, ih' ‹_› ‹_›]
  | triple _ _ _ ih ih' ih'' => cases ha; cases hb; rw [ih ‹_› ‹_›, ih' ‹_› ‹_›, ih'' ‹_› ‹_›]
  | newtype _ ih => cases ha; cases hb; rw [ih ‹_› ‹_›]
  | struct hn _ ih =>
    cases ha
    cases hb
    rw [fields_blank (fun q hq => ih q hq) hn ‹_› ‹_›]
  | variant => cases ha

/-! ## Every derived default can be made -/

/-- A component has a default value: it is a parameter, an optional component or a terminal. -/
def plainPart (ps : List Str) : RTy → Bool
  | .path0 n => ps.contains n || (crateTypes.any fun it => match it with | .unit m => sameStr m n | _ => false)
  | .path1 n _ => sameStr n c!"Option"
  | _ => false

def defaultCheck : Item → Bool
  | .struct n ps fs => !(traitsOf n).contains c!"Default" || fs.all fun f => plainPart ps f.2
  | .tuple n _ _ => !(traitsOf n).contains c!"Default"
  | .enum n _ => !(traitsOf n).contains c!"Default"
  | _ => true

theorem default_check : ∀ it ∈ crateItems, defaultCheck it = true := by
  have : crateItems.all defaultCheck = true := by decide +kernel
  simpa using this

theorem plainPart_sound {ps : List Str} {T t : RTy} (hl : ps.length = T.args.length)
    (ha : ∀ u ∈ T.args, ∃ v, DefaultOf crateItems u v) (h : plainPart ps t = true) :
    ∃ v, DefaultOf crateItems (t.subst (assign ps T.args)) v := by
  match t with
  | .path0 n =>
    by_cases hn : n ∈ ps
    · obtain ⟨u, hu, e⟩ := assign_some hn hl
      rw [RTy.subst, e]
      exact ha u hu
    · simp only [plainPart, Bool.or_eq_true, List.contains_iff_mem, hn, false_or, List.any_eq_true] at h
      obtain ⟨it, hit, h⟩ := h
      split at h
      · have := sameStr_eq h
        subst this
        rw [RTy.subst, assign_none hn]
        exact ⟨_, .token (unit_default (types_mem _ hit)) (types_mem _ hit)⟩
      · cases h
  | .path1 n u =>
    have := sameStr_eq h
    subst this
    exact ⟨_, .option⟩

theorem fields_default {is : List Item} {σ : Str → Option RTy} : ∀ {fs : List (Str × RTy)},
    (∀ f ∈ fs, ∃ v, DefaultOf is (f.2.subst σ) v) →
    ∃ vs : List (Str × Val), vs.map Prod.fst = fs.map Prod.fst ∧ ∀ p ∈ fs.zip vs, DefaultOf is (p.1.2.subst σ) p.2.2
  | [], _ => ⟨[], rfl, by simp⟩
  | f :: fs, h => by
    obtain ⟨v, hv⟩ := h f (by simp)
    obtain ⟨vs, h1, h2⟩ := fields_default (fs := fs) fun g hg => h g (List.mem_cons_of_mem _ hg)
    refine ⟨(f.1, v) :: vs, by simp [h1], fun p hp => ?_⟩
    rw [List.zip_cons_cons, List.mem_cons] at hp
    rcases hp with rfl | hp
    · exact hv
    · exact h2 p hp

theorem default_exists {T : RTy} {ps : List Str} {ts : List RTy} (hc : Components crateItems T.name ps ts)
    (hd : Derives crateItems c!"Default" T.name) (hl : ps.length = T.args.length)
    (ha : ∀ u ∈ T.args, ∃ v, DefaultOf crateItems u v) : ∃ v, DefaultOf crateItems T v := by
  have hd' : c!"Default" ∈ traitsOf T.name := mem_traitsOf.mpr hd
  generalize hn : T.name = n at hc
  cases hc with
  | struct h =>
    subst hn
    have := default_check _ h
    simp only [defaultCheck, List.contains_iff_mem.mpr hd', Bool.not_true, Bool.false_or, List.all_eq_true] at this
    obtain ⟨vs, h1, h2⟩ := fields_default fun f hf => plainPart_sound hl ha (this f hf)
    exact ⟨_, .struct hd h hl h1 h2⟩
  | tuple h =>
    subst hn
    have := default_check _ h
    simp only [defaultCheck, List.contains_iff_mem.mpr hd', Bool.not_true] at this
    cases this
  | unit h =>
    subst hn
    cases T with
    | path0 n => exact ⟨_, .token hd h⟩
    | path1 | path2 | path3 => simp [RTy.args] at hl
  | enum h =>
    subst hn
    have := default_check _ h
    simp only [defaultCheck, List.contains_iff_mem.mpr hd', Bool.not_true] at this
    cases this

end Verif.Source.Cloned
