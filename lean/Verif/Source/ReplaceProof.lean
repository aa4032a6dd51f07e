import Verif.Source.Replace
import Verif.Source.ExactTypes

/-!
# Types and conditions after replacing
-/

namespace Verif.Source.Exact

theorem path0_of {T : RTy} (h : T.args = []) : T = .path0 T.name := by
  cases T <;> first | rfl | cases h

/-- A node of a type without parameters has no other types than another one of that type. -/
theorem swap_type {x : Str} {u u' : Val} (hn : u.isNode = true) (hx : u.typeName = x) (hu : HasType crateItems (.path0 x) u)
    (hu' : HasType crateItems (.path0 x) u') {T : RTy} (h : HasType crateItems T u) : HasType crateItems T u' := by
  induction h with
  | newtype => cases hx; exact hu'
  | variant => cases hx; exact hu'
  | @struct T ps fs vs hm hp _ _ _ =>
    have hx : T.name = x := hx
    have : ps = [] := by
      generalize e : RTy.path0 x = U at hu
      generalize e' : Val.struct T.name vs = w at hu
      cases hu with
      | struct h h2 =>
        cases e
        have := unique.uniq _ hm _ h T.name rfl (congrArg some hx.symm)
        cases this
        exact List.length_eq_zero_iff.1 h2
      | «alias» h => cases e; cases unique.uniq _ hm _ h T.name rfl (congrArg some hx.symm)
      | _ => cases e'
    subst this
    rw [path0_of (List.length_eq_zero_iff.1 hp.symm), hx]
    exact hu'
  | «alias» hm _ ih => exact .alias hm (ih hn hx hu)
  | _ => cases hn

/-- Two nodes, of which one has the type named by the other. -/
theorem node_type {T : RTy} {x : Str} {u u' : Val} (h : HasType crateItems T u) (hn : u.isNode = true) (hx : u.typeName = x)
    (hu' : HasType crateItems (.path0 x) u') : HasType crateItems (.path0 x) u ∧ u'.isNode = true ∧ u'.typeName = x := by
  have inv {it : Item} (hm : it ∈ crateItems) (hi : it.typeName = some x) (hne : ∀ U, it ≠ .alias x U) (hu : ∀ y, it ≠ .unit y) :
      u'.isNode = true ∧ u'.typeName = x := by
    have hs (h : x ∈ stdNames) : False := unique.std it hm x h hi
    generalize e : RTy.path0 x = U at hu'
    cases hu' with
    | unit => cases e; exact (hs (by decide)).elim
    | str => cases e; exact (hs (by decide)).elim
    | char => cases e; exact (hs (by decide)).elim
    | bool => cases e; exact (hs (by decide)).elim
    | token h => cases e; exact absurd (unique.uniq _ hm _ h x hi rfl) (hu _)
    | newtype h => cases e; exact ⟨rfl, rfl⟩
    | struct h => cases e; exact ⟨rfl, rfl⟩
    | variant h => cases e; exact ⟨rfl, rfl⟩
    | «alias» h => cases e; exact absurd (unique.uniq _ hm _ h x hi rfl) (hne _)
    | _ => cases e
  induction h with
  | newtype hm h => cases hx; exact ⟨.newtype hm h, inv hm rfl (fun _ e => nomatch e) fun _ e => nomatch e⟩
  | variant hm hy h => cases hx; exact ⟨.variant hm hy h, inv hm rfl (fun _ e => nomatch e) fun _ e => nomatch e⟩
  | @struct T ps fs vs hm hp he h _ =>
    have hx : T.name = x := hx
    have hi := inv hm (congrArg some hx) (fun _ e => nomatch e) fun _ e => nomatch e
    have : ps = [] := by
      generalize e : RTy.path0 x = U at hu'
      cases hu' with
      | struct h h2 =>
        cases e
        cases unique.uniq _ hm _ h T.name rfl (congrArg some hx.symm)
        exact List.length_eq_zero_iff.1 h2
      | «alias» h => cases e; cases unique.uniq _ hm _ h T.name rfl (congrArg some hx.symm)
      | newtype h => cases e; cases unique.uniq _ hm _ h T.name rfl (congrArg some hx.symm)
      | variant h => cases e; cases unique.uniq _ hm _ h T.name rfl (congrArg some hx.symm)
      | _ => cases hi.1
    subst this
    refine ⟨?_, hi⟩
    have := HasType.struct hm hp he h
    rw [path0_of (List.length_eq_zero_iff.1 hp.symm), hx] at this
    rw [hx]
    exact this
  | «alias» hm _ ih => exact ih hn hx
  | _ => cases hn

theorem replaced_type {u u' : Val} (hs : ∀ T, HasType crateItems T u → HasType crateItems T u') {T : RTy} {v v' : Val}
    (h : HasType crateItems T v) (hr : Replaced u u' v v') : HasType crateItems T v' := by
  induction h generalizing v' with
  | unit | str | char | bool | none | token =>
    cases hr
    apply hs
    constructor <;> assumption
  | some h ih => cases hr with | here => exact hs _ (.some h) | some hr => exact .some (ih hr)
  | box h ih => cases hr with | here => exact hs _ (.box h) | box hr => exact .box (ih hr)
  | list h ih =>
    generalize e : Val.list _ = w at hr
    cases hr with
    | here => subst e; exact hs _ (.list h)
    | list hr =>
      cases e
      refine .list fun w hw => ?_
      rcases List.mem_append.1 hw with hw | hw
      · exact h w (by simp [hw])
      · rcases List.mem_cons.1 hw with rfl | hw
        · exact ih _ (by simp) hr
        · exact h w (by simp [hw])
    | _ => cases e
  | pair h1 h2 ih1 ih2 =>
    cases hr with
    | here => exact hs _ (.pair h1 h2)
    | pair1 hr => exact .pair (ih1 hr) h2
    | pair2 hr => exact .pair h1 (ih2 hr)
  | triple h1 h2 h3 ih1 ih2 ih3 =>
    cases hr with
    | here => exact hs _ (.triple h1 h2 h3)
    | triple1 hr => exact .triple (ih1 hr) h2 h3
    | triple2 hr => exact .triple h1 (ih2 hr) h3
    | triple3 hr => exact .triple h1 h2 (ih3 hr)
  | newtype hm h ih => cases hr with | here => exact hs _ (.newtype hm h) | newtype hr => exact .newtype hm (ih hr)
  | variant hm hy h ih => cases hr with | here => exact hs _ (.variant hm hy h) | variant hr => exact .variant hm hy (ih hr)
  | «alias» hm _ ih => exact .alias hm (ih hr)
  | @struct T ps fs vs hm hp he h ih =>
    generalize e : Val.struct _ vs = w at hr
    cases hr with
    | here => subst e; exact hs _ (.struct hm hp he h)
    | @struct n x a a' xs ys hr =>
      cases e
      simp only [List.map_append, List.map_cons] at he
      obtain ⟨f1, f2, rfl, e1, e2⟩ := List.append_eq_map_iff.1 he
      obtain ⟨f, f3, rfl, e3, e4⟩ := List.map_eq_cons_iff.1 e2
      have hl : f1.length = xs.length := by simpa using congrArg List.length e1
      refine .struct hm hp (by simp [e1, e3, e4]) fun p hp => ?_
      rw [List.zip_append hl, List.zip_cons_cons] at h ih hp
      rcases List.mem_append.1 hp with hp | hp
      · exact h p (by simp [hp])
      · rcases List.mem_cons.1 hp with rfl | hp
        · exact ih (f, x, a) (by simp) hr
        · exact h p (by simp [hp])
    | _ => cases e

theorem part_type {is : List Item} {T : RTy} {v w : Val} (h : HasType is T v) (hw : Part w v) : ∃ T', HasType is T' w := by
  induction h with
  | unit | str | char | bool | none | token =>
    cases hw
    exact ⟨_, by constructor <;> assumption⟩
  | some h ih => cases hw with | refl => exact ⟨_, .some h⟩ | some hw => exact ih hw
  | box h ih => cases hw with | refl => exact ⟨_, .box h⟩ | box hw => exact ih hw
  | list h ih => cases hw with | refl => exact ⟨_, .list h⟩ | list hm hw => exact ih _ hm hw
  | pair h1 h2 ih1 ih2 =>
    cases hw with
    | refl => exact ⟨_, .pair h1 h2⟩
    | pair1 hw => exact ih1 hw
    | pair2 hw => exact ih2 hw
  | triple h1 h2 h3 ih1 ih2 ih3 =>
    cases hw with
    | refl => exact ⟨_, .triple h1 h2 h3⟩
    | triple1 hw => exact ih1 hw
    | triple2 hw => exact ih2 hw
    | triple3 hw => exact ih3 hw
  | newtype hm h ih => cases hw with | refl => exact ⟨_, .newtype hm h⟩ | newtype hw => exact ih hw
  | variant hm hy h ih => cases hw with | refl => exact ⟨_, .variant hm hy h⟩ | variant hw => exact ih hw
  | «alias» hm _ ih => exact ih hw
  | @struct T ps fs vs hm hp he h ih =>
    cases hw with
    | refl => exact ⟨_, .struct hm hp he h⟩
    | struct hv hw =>
      obtain ⟨i, hi, e⟩ := List.mem_iff_getElem.1 hv
      have hl : fs.length = vs.length := by simpa using (congrArg List.length he).symm
      have hz : (fs[i]'(by omega), vs[i]) ∈ fs.zip vs := List.mem_iff_getElem.2 ⟨i, by simp; omega, by simp⟩
      exact ih _ hz (by rw [e]; exact hw)

theorem replaced_mem {u u' v v' : Val} (h : Replaced u u' v v') : Part u v := by
  induction h with
  | here => exact .refl
  | pair1 _ ih => exact .pair1 ih
  | pair2 _ ih => exact .pair2 ih
  | triple1 _ ih => exact .triple1 ih
  | triple2 _ ih => exact .triple2 ih
  | triple3 _ ih => exact .triple3 ih
  | some _ ih => exact .some ih
  | list _ ih => exact .list (by simp) ih
  | box _ ih => exact .box ih
  | @struct _ x v _ _ _ _ ih => exact .struct (x := x) (v := v) (by simp) ih
  | newtype _ ih => exact .newtype ih
  | variant _ ih => exact .variant ih

/-- The parts after replacing. -/
theorem replaced_part {u u' v v' w' : Val} (h : Replaced u u' v v') (hw : Part w' v') :
    Part w' v ∨ Part w' u' ∨ ∃ w, Part w v ∧ Replaced u u' w w' := by
  induction h with
  | here => exact .inr (.inl hw)
  | pair1 h ih =>
    cases hw with
    | refl => exact .inr (.inr ⟨_, .refl, .pair1 h⟩)
    | pair1 hw => exact (ih hw).imp .pair1 (.imp_right fun ⟨w, a, b⟩ => ⟨w, .pair1 a, b⟩)
    | pair2 hw => exact .inl (.pair2 hw)
  | pair2 h ih =>
    cases hw with
    | refl => exact .inr (.inr ⟨_, .refl, .pair2 h⟩)
    | pair1 hw => exact .inl (.pair1 hw)
    | pair2 hw => exact (ih hw).imp .pair2 (.imp_right fun ⟨w, a, b⟩ => ⟨w, .pair2 a, b⟩)
  | triple1 h ih =>
    cases hw with
    | refl => exact .inr (.inr ⟨_, .refl, .triple1 h⟩)
    | triple1 hw => exact (ih hw).imp .triple1 (.imp_right fun ⟨w, a, b⟩ => ⟨w, .triple1 a, b⟩)
    | triple2 hw => exact .inl (.triple2 hw)
    | triple3 hw => exact .inl (.triple3 hw)
  | triple2 h ih =>
    cases hw with
    | refl => exact .inr (.inr ⟨_, .refl, .triple2 h⟩)
    | triple1 hw => exact .inl (.triple1 hw)
    | triple2 hw => exact (ih hw).imp .triple2 (.imp_right fun ⟨w, a, b⟩ => ⟨w, .triple2 a, b⟩)
    | triple3 hw => exact .inl (.triple3 hw)
  | triple3 h ih =>
    cases hw with
    | refl => exact .inr (.inr ⟨_, .refl, .triple3 h⟩)
    | triple1 hw => exact .inl (.triple1 hw)
    | triple2 hw => exact .inl (.triple2 hw)
    | triple3 hw => exact (ih hw).imp .triple3 (.imp_right fun ⟨w, a, b⟩ => ⟨w, .triple3 a, b⟩)
  | some h ih =>
    cases hw with
    | refl => exact .inr (.inr ⟨_, .refl, .some h⟩)
    | some hw => exact (ih hw).imp .some (.imp_right fun ⟨w, a, b⟩ => ⟨w, .some a, b⟩)
  | box h ih =>
    cases hw with
    | refl => exact .inr (.inr ⟨_, .refl, .box h⟩)
    | box hw => exact (ih hw).imp .box (.imp_right fun ⟨w, a, b⟩ => ⟨w, .box a, b⟩)
  | newtype h ih =>
    cases hw with
    | refl => exact .inr (.inr ⟨_, .refl, .newtype h⟩)
    | newtype hw => exact (ih hw).imp .newtype (.imp_right fun ⟨w, a, b⟩ => ⟨w, .newtype a, b⟩)
  | variant h ih =>
    cases hw with
    | refl => exact .inr (.inr ⟨_, .refl, .variant h⟩)
    | variant hw => exact (ih hw).imp .variant (.imp_right fun ⟨w, a, b⟩ => ⟨w, .variant a, b⟩)
  | list h ih =>
    cases hw with
    | refl => exact .inr (.inr ⟨_, .refl, .list h⟩)
    | list hm hw =>
      rcases List.mem_append.1 hm with hm | hm
      · exact .inl (.list (List.mem_append_left _ hm) hw)
      · rcases List.mem_cons.1 hm with rfl | hm
        · exact (ih hw).imp (.list (by simp)) (.imp_right fun ⟨w, a, b⟩ => ⟨w, .list (by simp) a, b⟩)
        · exact .inl (.list (List.mem_append_right _ (.tail _ hm)) hw)
  | @struct n x a a' xs ys h ih =>
    cases hw with
    | refl => exact .inr (.inr ⟨_, .refl, .struct h⟩)
    | struct hm hw =>
      rcases List.mem_append.1 hm with hm | hm
      · exact .inl (.struct (List.mem_append_left _ hm) hw)
      · rcases List.mem_cons.1 hm with e | hm
        · cases e
          exact (ih hw).imp (.struct (x := x) (v := a) (by simp)) (.imp_right fun ⟨w, p, q⟩ => ⟨w, .struct (x := x) (v := a) (by simp) p, q⟩)
        · exact .inl (.struct (List.mem_append_right _ (.tail _ hm)) hw)

theorem get_replaced {x : Str} {a a' : Val} {ys : List (Str × Val)} (z : Str) : ∀ {xs : List (Str × Val)},
    Env.get (xs ++ (x, a') :: ys) z = Env.get (xs ++ (x, a) :: ys) z ∨
      (Env.get (xs ++ (x, a') :: ys) z = a' ∧ Env.get (xs ++ (x, a) :: ys) z = a)
  | [] => by
    simp only [List.nil_append, Env.get]
    split
    · exact .inr ⟨rfl, rfl⟩
    · exact .inl rfl
  | (y, v) :: xs => by
    simp only [List.cons_append, Env.get]
    split
    · exact .inl rfl
    · exact get_replaced z

theorem argument_type {T : RTy} {vs : List (Str × Val)} (h : HasType crateItems T (.struct c!"SingleArgument" vs)) :
    HasType crateItems (.path0 c!"AttributedType") (Env.get vs c!"type_") := by
  generalize e : Val.struct c!"SingleArgument" vs = v at h
  induction h with
  | «alias» _ _ ih => exact ih e
  | @struct T ps fs ws hm hp he h ih =>
    injection e with e1 e2
    subst e2
    have := unique.uniq _ mSingleArgument _ hm _ rfl (congrArg some e1.symm)
    simp only [Item.struct.injEq] at this
    obtain ⟨-, rfl, rfl⟩ := this
    match vs, he with
    | [(x0, v0), (x1, v1), (x2, v2), (x3, v3), (x4, v4)], he =>
      simp only [List.map_cons, List.map_nil, List.cons.injEq, and_true] at he
      obtain ⟨rfl, rfl, rfl, rfl, rfl⟩ := he
      exact h (_, (_, v2)) (.tail _ (.tail _ (.head _)))
  | _ => cases e

theorem attributed_struct {v : Val} (h : HasType crateItems (.path0 c!"AttributedType") v) : ∃ vs, v = .struct c!"AttributedType" vs := by
  have hm := mAttributedType
  generalize e : RTy.path0 c!"AttributedType" = T at h
  cases h with
  | struct => cases e; exact ⟨_, rfl⟩
  | token h => cases e; cases unique.uniq _ hm _ h _ rfl rfl
  | newtype h => cases e; cases unique.uniq _ hm _ h _ rfl rfl
  | variant h => cases e; cases unique.uniq _ hm _ h _ rfl rfl
  | «alias» h => cases e; cases unique.uniq _ hm _ h _ rfl rfl
  | _ => cases e

theorem replaced_legal {u u' w w' : Val} (hn : u.isNode = true) (hn' : u'.isNode = true) (ha : u'.typeName ≠ c!"AttributedType")
    (hb : u'.typeName ≠ c!"NonAnyType") (hr : Replaced u u' w w') (hl : Legal w) (hl' : Legal u') {T : RTy} (ht : HasType crateItems T w') :
    Legal w' := by
  have none' {a : Val} (h : Replaced u u' a .none) : False := by cases h; cases hn'
  have none {a : Val} (h : Replaced u u' .none a) : False := by cases h; cases hn
  have str {a : Val} {s : Str} (h : Replaced u u' a (.str s)) : False := by cases h; cases hn'
  cases hr with
  | here => exact hl'
  | newtype hr =>
    constructor
    case key => intro _ _ e; cases e
    all_goals intro x e; cases e
    all_goals exact (str hr).elim
  | variant hr =>
    constructor
    case key =>
      intro n v e
      cases e
      cases hr with
      | here => exact absurd rfl hb
      | variant hr => exact hl.key _ _ rfl
    all_goals intro _ e; cases e
  | @struct n x a a' xs ys hr =>
    constructor
    case default =>
      intro fs e ho
      cases e
      have ho : Env.get _ _ = _ := ho
      have := hl.default _ rfl
      simp only [Val.field] at this ⊢
      rcases get_replaced (a := a) (a' := a') (x := x) (ys := ys) c!"optional" (xs := xs) with h | ⟨h, -⟩
      · have := this (h ▸ ho)
        rcases get_replaced (a := a) (a' := a') (x := x) (ys := ys) c!"default" (xs := xs) with h | ⟨h, h'⟩
        · rw [h]; exact this
        · rw [this] at h'; exact (none (h' ▸ hr)).elim
      · rw [h] at ho; exact (none' (ho ▸ hr)).elim
    case attributes =>
      intro fs e ho hat
      cases e
      have ho : Env.get _ _ = _ := ho
      have hat : Env.get _ _ = _ := hat
      have := hl.attributes _ rfl
      have ht := argument_type ht
      simp only [Val.field] at this ⊢
      rcases get_replaced (a := a) (a' := a') (x := x) (ys := ys) c!"optional" (xs := xs) with h | ⟨h, -⟩
      · rcases get_replaced (a := a) (a' := a') (x := x) (ys := ys) c!"attributes" (xs := xs) with h1 | ⟨h1, -⟩
        · have := this (h ▸ ho) (h1 ▸ hat)
          rcases get_replaced (a := a) (a' := a') (x := x) (ys := ys) c!"type_" (xs := xs) with h2 | ⟨h2, h3⟩
          · rw [h2]; exact this
          · rw [h2] at ht ⊢
            rw [h3] at this
            obtain ⟨vs, rfl⟩ := attributed_struct ht
            generalize e : Val.struct c!"AttributedType" vs = b at hr
            cases hr with
            | here => subst e; exact absurd rfl ha
            | @struct _ x' b b' xs' ys' hr =>
              cases e
              have this : Env.get _ _ = _ := this
              show Env.get _ _ = _
              rcases get_replaced (a := b) (a' := b') (x := x') (ys := ys') c!"attributes" (xs := xs') with h | ⟨h, h'⟩
              · rw [h]; exact this
              · rw [this] at h'; exact (none (h' ▸ hr)).elim
            | _ => cases e
        · rw [h1] at hat; exact (none' (hat ▸ hr)).elim
      · rw [h] at ho; exact (none' (ho ▸ hr)).elim
    case nonempty =>
      intro fs e hne
      cases e
      have hne : Env.get _ _ = _ := hne
      rcases get_replaced (a := a) (a' := a') (x := x) (ys := ys) c!"list" (xs := xs) with h | ⟨h, -⟩
      · exact hl.nonempty _ rfl (h.symm.trans hne)
      · rw [h] at hne
        subst hne
        generalize e : Val.list [] = b at hr
        cases hr with
        | here => subst e; cases hn'
        | list => simp at e
        | _ => cases e
    case key => intro _ _ e; cases e
    all_goals intro _ e; cases e
  | _ => constructor <;> intros <;> contradiction

/-! ## Lists -/

theorem rearranged_type {T : RTy} {v v' : Val}
    (h : HasType crateItems T v) (hr : Rearranged v v') : HasType crateItems T v' := by
  induction h generalizing v' with
  | unit | str | char | bool | none | token =>
    cases hr
  | some h ih => cases hr with | some hr => exact .some (ih hr)
  | box h ih => cases hr with | box hr => exact .box (ih hr)
  | list h ih =>
    generalize e : Val.list _ = w at hr
    cases hr with
    | here hw => cases e; exact .list fun w hm => h w (hw w hm)
    | list hr =>
      cases e
      refine .list fun w hw => ?_
      rcases List.mem_append.1 hw with hw | hw
      · exact h w (by simp [hw])
      · rcases List.mem_cons.1 hw with rfl | hw
        · exact ih _ (by simp) hr
        · exact h w (by simp [hw])
    | _ => cases e
  | pair h1 h2 ih1 ih2 =>
    cases hr with
    | pair1 hr => exact .pair (ih1 hr) h2
    | pair2 hr => exact .pair h1 (ih2 hr)
  | triple h1 h2 h3 ih1 ih2 ih3 =>
    cases hr with
    | triple1 hr => exact .triple (ih1 hr) h2 h3
    | triple2 hr => exact .triple h1 (ih2 hr) h3
    | triple3 hr => exact .triple h1 h2 (ih3 hr)
  | newtype hm h ih => cases hr with | newtype hr => exact .newtype hm (ih hr)
  | variant hm hy h ih => cases hr with | variant hr => exact .variant hm hy (ih hr)
  | «alias» hm _ ih => exact .alias hm (ih hr)
  | @struct T ps fs vs hm hp he h ih =>
    generalize e : Val.struct _ vs = w at hr
    cases hr with
    | @struct n x a a' xs ys hr =>
      cases e
      simp only [List.map_append, List.map_cons] at he
      obtain ⟨f1, f2, rfl, e1, e2⟩ := List.append_eq_map_iff.1 he
      obtain ⟨f, f3, rfl, e3, e4⟩ := List.map_eq_cons_iff.1 e2
      have hl : f1.length = xs.length := by simpa using congrArg List.length e1
      refine .struct hm hp (by simp [e1, e3, e4]) fun p hp => ?_
      rw [List.zip_append hl, List.zip_cons_cons] at h ih hp
      rcases List.mem_append.1 hp with hp | hp
      · exact h p (by simp [hp])
      · rcases List.mem_cons.1 hp with rfl | hp
        · exact ih (f, x, a) (by simp) hr
        · exact h p (by simp [hp])
    | _ => cases e

theorem rearranged_part {v v' w' : Val} (h : Rearranged v v') (hw : Part w' v') :
    Part w' v ∨ ∃ w, Part w v ∧ Rearranged w w' := by
  induction h with
  | here hm =>
    cases hw with
    | refl => exact .inr ⟨_, .refl, .here hm⟩
    | list h hw => exact .inl (.list (hm _ h) hw)
  | pair1 h ih =>
    cases hw with
    | refl => exact .inr (⟨_, .refl, .pair1 h⟩)
    | pair1 hw => exact (ih hw).imp .pair1 (fun ⟨w, a, b⟩ => ⟨w, .pair1 a, b⟩)
    | pair2 hw => exact .inl (.pair2 hw)
  | pair2 h ih =>
    cases hw with
    | refl => exact .inr (⟨_, .refl, .pair2 h⟩)
    | pair1 hw => exact .inl (.pair1 hw)
    | pair2 hw => exact (ih hw).imp .pair2 (fun ⟨w, a, b⟩ => ⟨w, .pair2 a, b⟩)
  | triple1 h ih =>
    cases hw with
    | refl => exact .inr (⟨_, .refl, .triple1 h⟩)
    | triple1 hw => exact (ih hw).imp .triple1 (fun ⟨w, a, b⟩ => ⟨w, .triple1 a, b⟩)
    | triple2 hw => exact .inl (.triple2 hw)
    | triple3 hw => exact .inl (.triple3 hw)
  | triple2 h ih =>
    cases hw with
    | refl => exact .inr (⟨_, .refl, .triple2 h⟩)
    | triple1 hw => exact .inl (.triple1 hw)
    | triple2 hw => exact (ih hw).imp .triple2 (fun ⟨w, a, b⟩ => ⟨w, .triple2 a, b⟩)
    | triple3 hw => exact .inl (.triple3 hw)
  | triple3 h ih =>
    cases hw with
    | refl => exact .inr (⟨_, .refl, .triple3 h⟩)
    | triple1 hw => exact .inl (.triple1 hw)
    | triple2 hw => exact .inl (.triple2 hw)
    | triple3 hw => exact (ih hw).imp .triple3 (fun ⟨w, a, b⟩ => ⟨w, .triple3 a, b⟩)
  | some h ih =>
    cases hw with
    | refl => exact .inr (⟨_, .refl, .some h⟩)
    | some hw => exact (ih hw).imp .some (fun ⟨w, a, b⟩ => ⟨w, .some a, b⟩)
  | box h ih =>
    cases hw with
    | refl => exact .inr (⟨_, .refl, .box h⟩)
    | box hw => exact (ih hw).imp .box (fun ⟨w, a, b⟩ => ⟨w, .box a, b⟩)
  | newtype h ih =>
    cases hw with
    | refl => exact .inr (⟨_, .refl, .newtype h⟩)
    | newtype hw => exact (ih hw).imp .newtype (fun ⟨w, a, b⟩ => ⟨w, .newtype a, b⟩)
  | variant h ih =>
    cases hw with
    | refl => exact .inr (⟨_, .refl, .variant h⟩)
    | variant hw => exact (ih hw).imp .variant (fun ⟨w, a, b⟩ => ⟨w, .variant a, b⟩)
  | list h ih =>
    cases hw with
    | refl => exact .inr (⟨_, .refl, .list h⟩)
    | list hm hw =>
      rcases List.mem_append.1 hm with hm | hm
      · exact .inl (.list (List.mem_append_left _ hm) hw)
      · rcases List.mem_cons.1 hm with rfl | hm
        · exact (ih hw).imp (.list (by simp)) (fun ⟨w, a, b⟩ => ⟨w, .list (by simp) a, b⟩)
        · exact .inl (.list (List.mem_append_right _ (.tail _ hm)) hw)
  | @struct n x a a' xs ys h ih =>
    cases hw with
    | refl => exact .inr (⟨_, .refl, .struct h⟩)
    | struct hm hw =>
      rcases List.mem_append.1 hm with hm | hm
      · exact .inl (.struct (List.mem_append_left _ hm) hw)
      · rcases List.mem_cons.1 hm with e | hm
        · cases e
          exact (ih hw).imp (.struct (x := x) (v := a) (by simp)) (fun ⟨w, p, q⟩ => ⟨w, .struct (x := x) (v := a) (by simp) p, q⟩)
        · exact .inl (.struct (List.mem_append_right _ (.tail _ hm)) hw)

theorem rearranged_legal {w w' : Val} (hr : Rearranged w w') (hl : Legal w)
    (hne : ∀ fs, w' = .struct c!"PunctuatedNonEmpty" fs → w'.field c!"list" ≠ .list []) : Legal w' := by
  have none' {a : Val} (h : Rearranged a .none) : False := by cases h
  have none {a : Val} (h : Rearranged .none a) : False := by cases h
  have str {a : Val} {s : Str} (h : Rearranged a (.str s)) : False := by cases h
  cases hr with
  | newtype hr =>
    constructor
    case key => intro _ _ e; cases e
    all_goals intro x e; cases e
    all_goals exact (str hr).elim
  | variant hr =>
    constructor
    case key =>
      intro n v e
      cases e
      cases hr with
      | variant hr => exact hl.key _ _ rfl
    all_goals intro _ e; cases e
  | @struct n x a a' xs ys hr =>
    constructor
    case default =>
      intro fs e ho
      cases e
      have ho : Env.get _ _ = _ := ho
      have := hl.default _ rfl
      simp only [Val.field] at this ⊢
      rcases get_replaced (a := a) (a' := a') (x := x) (ys := ys) c!"optional" (xs := xs) with h | ⟨h, -⟩
      · have := this (h ▸ ho)
        rcases get_replaced (a := a) (a' := a') (x := x) (ys := ys) c!"default" (xs := xs) with h | ⟨h, h'⟩
        · rw [h]; exact this
        · rw [this] at h'; exact (none (h' ▸ hr)).elim
      · rw [h] at ho; exact (none' (ho ▸ hr)).elim
    case attributes =>
      intro fs e ho hat
      cases e
      have ho : Env.get _ _ = _ := ho
      have hat : Env.get _ _ = _ := hat
      have := hl.attributes _ rfl
      simp only [Val.field] at this ⊢
      rcases get_replaced (a := a) (a' := a') (x := x) (ys := ys) c!"optional" (xs := xs) with h | ⟨h, -⟩
      · rcases get_replaced (a := a) (a' := a') (x := x) (ys := ys) c!"attributes" (xs := xs) with h1 | ⟨h1, -⟩
        · have := this (h ▸ ho) (h1 ▸ hat)
          rcases get_replaced (a := a) (a' := a') (x := x) (ys := ys) c!"type_" (xs := xs) with h2 | ⟨h2, h3⟩
          · rw [h2]; exact this
          · rw [h2]
            rw [h3] at this
            cases hr with
            | @struct _ x' b b' xs' ys' hr =>
              have this : Env.get _ _ = _ := this
              show Env.get _ _ = _
              rcases get_replaced (a := b) (a' := b') (x := x') (ys := ys') c!"attributes" (xs := xs') with h | ⟨h, h'⟩
              · rw [h]; exact this
              · rw [this] at h'; exact (none (h' ▸ hr)).elim
            | _ => cases this
        · rw [h1] at hat; exact (none' (hat ▸ hr)).elim
      · rw [h] at ho; exact (none' (ho ▸ hr)).elim
    case nonempty => exact hne
    case key => intro _ _ e; cases e
    all_goals intro _ e; cases e
  | _ => constructor <;> intros <;> contradiction

/-! ## Options -/

theorem cleared_type {T : RTy} {v v' : Val}
    (h : HasType crateItems T v) (hr : Cleared v v') : HasType crateItems T v' := by
  induction h generalizing v' with
  | unit | str | char | bool | none | token =>
    cases hr
  | some h ih =>
    cases hr with
    | here => exact .none
    | some hr => exact .some (ih hr)
  | box h ih => cases hr with | box hr => exact .box (ih hr)
  | list h ih =>
    generalize e : Val.list _ = w at hr
    cases hr with
    | list hr =>
      cases e
      refine .list fun w hw => ?_
      rcases List.mem_append.1 hw with hw | hw
      · exact h w (by simp [hw])
      · rcases List.mem_cons.1 hw with rfl | hw
        · exact ih _ (by simp) hr
        · exact h w (by simp [hw])
    | _ => cases e
  | pair h1 h2 ih1 ih2 =>
    cases hr with
    | pair1 hr => exact .pair (ih1 hr) h2
    | pair2 hr => exact .pair h1 (ih2 hr)
  | triple h1 h2 h3 ih1 ih2 ih3 =>
    cases hr with
    | triple1 hr => exact .triple (ih1 hr) h2 h3
    | triple2 hr => exact .triple h1 (ih2 hr) h3
    | triple3 hr => exact .triple h1 h2 (ih3 hr)
  | newtype hm h ih => cases hr with | newtype hr => exact .newtype hm (ih hr)
  | variant hm hy h ih => cases hr with | variant hr => exact .variant hm hy (ih hr)
  | «alias» hm _ ih => exact .alias hm (ih hr)
  | @struct T ps fs vs hm hp he h ih =>
    generalize e : Val.struct _ vs = w at hr
    cases hr with
    | @struct n x a a' xs ys hr _ =>
      cases e
      simp only [List.map_append, List.map_cons] at he
      obtain ⟨f1, f2, rfl, e1, e2⟩ := List.append_eq_map_iff.1 he
      obtain ⟨f, f3, rfl, e3, e4⟩ := List.map_eq_cons_iff.1 e2
      have hl : f1.length = xs.length := by simpa using congrArg List.length e1
      refine .struct hm hp (by simp [e1, e3, e4]) fun p hp => ?_
      rw [List.zip_append hl, List.zip_cons_cons] at h ih hp
      rcases List.mem_append.1 hp with hp | hp
      · exact h p (by simp [hp])
      · rcases List.mem_cons.1 hp with rfl | hp
        · exact ih (f, x, a) (by simp) hr
        · exact h p (by simp [hp])
    | _ => cases e

theorem cleared_part {v v' w' : Val} (h : Cleared v v') (hw : Part w' v') :
    Part w' v ∨ ∃ w, Part w v ∧ Cleared w w' := by
  induction h with
  | here =>
    cases hw with
    | refl => exact .inr ⟨_, .refl, .here⟩
  | pair1 h ih =>
    cases hw with
    | refl => exact .inr (⟨_, .refl, .pair1 h⟩)
    | pair1 hw => exact (ih hw).imp .pair1 (fun ⟨w, a, b⟩ => ⟨w, .pair1 a, b⟩)
    | pair2 hw => exact .inl (.pair2 hw)
  | pair2 h ih =>
    cases hw with
    | refl => exact .inr (⟨_, .refl, .pair2 h⟩)
    | pair1 hw => exact .inl (.pair1 hw)
    | pair2 hw => exact (ih hw).imp .pair2 (fun ⟨w, a, b⟩ => ⟨w, .pair2 a, b⟩)
  | triple1 h ih =>
    cases hw with
    | refl => exact .inr (⟨_, .refl, .triple1 h⟩)
    | triple1 hw => exact (ih hw).imp .triple1 (fun ⟨w, a, b⟩ => ⟨w, .triple1 a, b⟩)
    | triple2 hw => exact .inl (.triple2 hw)
    | triple3 hw => exact .inl (.triple3 hw)
  | triple2 h ih =>
    cases hw with
    | refl => exact .inr (⟨_, .refl, .triple2 h⟩)
    | triple1 hw => exact .inl (.triple1 hw)
    | triple2 hw => exact (ih hw).imp .triple2 (fun ⟨w, a, b⟩ => ⟨w, .triple2 a, b⟩)
    | triple3 hw => exact .inl (.triple3 hw)
  | triple3 h ih =>
    cases hw with
    | refl => exact .inr (⟨_, .refl, .triple3 h⟩)
    | triple1 hw => exact .inl (.triple1 hw)
    | triple2 hw => exact .inl (.triple2 hw)
    | triple3 hw => exact (ih hw).imp .triple3 (fun ⟨w, a, b⟩ => ⟨w, .triple3 a, b⟩)
  | some h ih =>
    cases hw with
    | refl => exact .inr (⟨_, .refl, .some h⟩)
    | some hw => exact (ih hw).imp .some (fun ⟨w, a, b⟩ => ⟨w, .some a, b⟩)
  | box h ih =>
    cases hw with
    | refl => exact .inr (⟨_, .refl, .box h⟩)
    | box hw => exact (ih hw).imp .box (fun ⟨w, a, b⟩ => ⟨w, .box a, b⟩)
  | newtype h ih =>
    cases hw with
    | refl => exact .inr (⟨_, .refl, .newtype h⟩)
    | newtype hw => exact (ih hw).imp .newtype (fun ⟨w, a, b⟩ => ⟨w, .newtype a, b⟩)
  | variant h ih =>
    cases hw with
    | refl => exact .inr (⟨_, .refl, .variant h⟩)
    | variant hw => exact (ih hw).imp .variant (fun ⟨w, a, b⟩ => ⟨w, .variant a, b⟩)
  | list h ih =>
    cases hw with
    | refl => exact .inr (⟨_, .refl, .list h⟩)
    | list hm hw =>
      rcases List.mem_append.1 hm with hm | hm
      · exact .inl (.list (List.mem_append_left _ hm) hw)
      · rcases List.mem_cons.1 hm with rfl | hm
        · exact (ih hw).imp (.list (by simp)) (fun ⟨w, a, b⟩ => ⟨w, .list (by simp) a, b⟩)
        · exact .inl (.list (List.mem_append_right _ (.tail _ hm)) hw)
  | @struct n x a a' xs ys h hx ih =>
    cases hw with
    | refl => exact .inr (⟨_, .refl, .struct h hx⟩)
    | struct hm hw =>
      rcases List.mem_append.1 hm with hm | hm
      · exact .inl (.struct (List.mem_append_left _ hm) hw)
      · rcases List.mem_cons.1 hm with e | hm
        · cases e
          exact (ih hw).imp (.struct (x := x) (v := a) (by simp)) (fun ⟨w, p, q⟩ => ⟨w, .struct (x := x) (v := a) (by simp) p, q⟩)
        · exact .inl (.struct (List.mem_append_right _ (.tail _ hm)) hw)

theorem get_name {x y : Str} {a a' : Val} {xs ys : List (Str × Val)} (h : Env.get (xs ++ (x, a) :: ys) y ≠ Env.get (xs ++ (x, a') :: ys) y) :
    x = y := by
  induction xs with
  | nil =>
    by_cases e : x = y
    · exact e
    · exact absurd (by simp [Env.get, e]) h
  | cons p xs ih =>
    by_cases e : p.1 = y
    · exact absurd (by simp [Env.get, e]) h
    · exact ih (by simpa [Env.get, e] using h)

theorem cleared_legal {w w' : Val} (hr : Cleared w w') (hl : Legal w) : Legal w' := by
  have none {a : Val} (h : Cleared .none a) : False := by cases h
  have str {a : Val} {s : Str} (h : Cleared a (.str s)) : False := by cases h
  cases hr with
  | newtype hr =>
    constructor
    case key => intro _ _ e; cases e
    all_goals intro x e; cases e
    all_goals exact (str hr).elim
  | variant hr =>
    constructor
    case key =>
      intro n v e
      cases e
      cases hr with
      | variant hr => exact hl.key _ _ rfl
    all_goals intro _ e; cases e
  | @struct n x a a' xs ys hr hx =>
    have same (hn : n = c!"SingleArgument") {y : Str} (hy : y = c!"optional" ∨ y = c!"attributes")
        (h : Env.get (xs ++ (x, a') :: ys) y = .none) : Env.get (xs ++ (x, a) :: ys) y = .none := by
      by_cases e : Env.get (xs ++ (x, a) :: ys) y = Env.get (xs ++ (x, a') :: ys) y
      · rw [e, h]
      · have := get_name e
        subst this
        rcases get_replaced (a := a) (a' := a') (x := x) (ys := ys) x (xs := xs) with h' | ⟨h', -⟩
        · exact absurd h'.symm e
        · exact absurd (h' ▸ h) (hx hn hy)
    constructor
    case default =>
      intro fs e ho
      cases e
      have := hl.default _ rfl (same rfl (.inl rfl) ho)
      simp only [Val.field] at this ⊢
      rcases get_replaced (a := a) (a' := a') (x := x) (ys := ys) c!"default" (xs := xs) with h | ⟨h, h'⟩
      · rw [h]; exact this
      · rw [this] at h'; exact (none (h' ▸ hr)).elim
    case attributes =>
      intro fs e ho hat
      cases e
      have := hl.attributes _ rfl (same rfl (.inl rfl) ho) (same rfl (.inr rfl) hat)
      simp only [Val.field] at this ⊢
      rcases get_replaced (a := a) (a' := a') (x := x) (ys := ys) c!"type_" (xs := xs) with h2 | ⟨h2, h3⟩
      · rw [h2]; exact this
      · rw [h2]
        rw [h3] at this
        cases hr with
        | @struct _ x' b b' xs' ys' hr =>
          have this : Env.get _ _ = _ := this
          show Env.get _ _ = _
          rcases get_replaced (a := b) (a' := b') (x := x') (ys := ys') c!"attributes" (xs := xs') with h | ⟨h, h'⟩
          · rw [h]; exact this
          · rw [this] at h'; exact (none (h' ▸ hr)).elim
        | _ => cases this
    case nonempty =>
      intro fs e ho
      cases e
      have ho : Env.get _ _ = _ := ho
      have := hl.nonempty _ rfl
      simp only [Val.field] at this
      rcases get_replaced (a := a) (a' := a') (x := x) (ys := ys) c!"list" (xs := xs) with h | ⟨h, h'⟩
      · exact this (h ▸ ho)
      · rw [h] at ho
        rw [h'] at this
        subst ho
        generalize e : Val.list [] = z at hr
        cases hr with
        | list => simp at e
        | _ => cases e
    case key => intro _ _ e; cases e
    all_goals intro _ e; cases e
  | _ => constructor <;> intros <;> contradiction

end Verif.Source.Exact
