import Verif.Properties.Typing
import Verif.Source.OrderProof

/-!
# C77: the order of results
-/

namespace Verif.Properties
open Nom Spec Source

/-- Identifiers are sorted as in a dictionary of code points, although Rust compares their bytes. -/
theorem C77_names {is : List Item} (a b : Str) : (identVal a).cmp is (identVal b) = some .lt ↔ Before a b := by
  show (if _ = _ then some (dictionary _ _) else none) = _ ↔ _
  rw [if_pos rfl, Option.some.injEq]
  exact text_lt

/-- The contents of string literals are sorted in the same way. -/
theorem C77_strings {is : List Item} (a b : Str) : (stringVal a).cmp is (stringVal b) = some .lt ↔ Before a b := by
  show (if _ = _ then some (dictionary _ _) else none) = _ ↔ _
  rw [if_pos rfl, Option.some.injEq]
  exact text_lt

/-- Lists are sorted by their first different element; a list comes before those that go on where it ends. -/
theorem C77_lists {is : List Item} (hi : expandSource = some is) {T : RTy} {cs : List Val} (hc : HasType is T (.list cs)) :
    (∀ a b as bs o, o ≠ .eq → a.cmp is b = some o → (Val.list (cs ++ a :: as)).cmp is (.list (cs ++ b :: bs)) = some o) ∧
    ∀ a as, (Val.list cs).cmp is (.list (cs ++ a :: as)) = some .lt := by
  rw [expandSource_eq] at hi
  cases hi
  have h : ∀ c ∈ cs, c.cmp crateItems c = some .eq := fun c hm =>
    have ⟨_, hU⟩ := hasType_elements hc cs rfl c hm
    cmp_self unique hU
  constructor
  · intro a b as bs o ho e
    show cmpList _ _ _ = _
    rw [cmpList_append h, cmpList, e, andThen_ne ho]
  · intro a as
    show cmpList _ _ _ = _
    have := cmpList_append h [] (a :: as)
    rw [List.append_nil] at this
    rw [this, cmpList]

/-- Structs are sorted by the first field, in the order of the declaration, in which they differ. -/
theorem C77_structs {is : List Item} (hi : expandSource = some is) {T : RTy} {n x : Str} {a b : Val} {cs as bs : List (Str × Val)}
    (h : HasType is T (.struct n (cs ++ (x, a) :: as))) {o : Ordering} (ho : o ≠ .eq) (e : a.cmp is b = some o) :
    (Val.struct n (cs ++ (x, a) :: as)).cmp is (.struct n (cs ++ (x, b) :: bs)) = some o := by
  rw [expandSource_eq] at hi
  cases hi
  show (if n = n then cmpFields _ _ _ else none) = _
  rw [if_pos rfl, cmpFields_append, cmpFields, if_pos rfl, e, andThen_ne ho]
  intro c hm
  obtain ⟨_, hU⟩ := hasType_fields h _ _ rfl c (List.mem_append_left _ hm)
  exact cmp_self unique hU

/-- Values of an enum are sorted by the variant, in the order of the declaration, and values of the same variant by what it contains. -/
theorem C77_enums {is : List Item} (hi : expandSource = some is) {n x : Str} {t : RTy} {us vs : List (Str × RTy)}
    (h : .enum n (us ++ (x, t) :: vs) ∈ is) (a b : Val) :
    (∀ y ∈ vs.map Prod.fst, (Val.variant n x a).cmp is (.variant n y b) = some .lt) ∧
    (Val.variant n x a).cmp is (.variant n x b) = a.cmp is b := by
  rw [expandSource_eq] at hi
  cases hi
  have he := unique.enumOf h
  have hd := unique.variants _ _ h
  rw [List.map_append, List.map_cons, List.nodup_append, List.nodup_cons] at hd
  obtain ⟨-, ⟨hx, hv⟩, hu⟩ := hd
  have hp : place x (us ++ (x, t) :: vs) = some us.length :=
    place_append fun u hm e => hu u.1 (List.mem_map_of_mem hm) x (.head _) e
  constructor
  · intro y hy
    obtain ⟨⟨y, u⟩, hm, rfl⟩ := List.mem_map.mp hy
    obtain ⟨v1, v2, rfl⟩ := List.append_of_mem hm
    have hq : place y ((us ++ (x, t) :: v1) ++ (y, u) :: v2) = some (us ++ (x, t) :: v1).length := by
      refine place_append fun w hw e => ?_
      rcases List.mem_append.mp hw with hw | hw
      · exact hu w.1 (List.mem_map_of_mem hw) y (.tail _ hy) e
      · rcases List.mem_cons.mp hw with rfl | hw
        · exact hx (by simpa [← e] using hy)
        · rw [List.map_append, List.map_cons, List.nodup_append] at hv
          exact hv.2.2 w.1 (List.mem_map_of_mem hw) y (.head _) e
    rw [List.append_assoc, List.cons_append] at hq
    simp only [Val.cmp, if_pos, he, hp, hq]
    rw [if_neg (by simp), cmpNat_lt.mpr (by simp)]
  · simp only [Val.cmp, if_pos, he, hp]

private def variants : List (Str × RTy) := [
  (c!"Callback", .path0 c!"CallbackDefinition"),
  (c!"CallbackInterface", .path0 c!"CallbackInterfaceDefinition"),
  (c!"Interface", .path0 c!"InterfaceDefinition"),
  (c!"InterfaceMixin", .path0 c!"InterfaceMixinDefinition"),
  (c!"Namespace", .path0 c!"NamespaceDefinition"),
  (c!"Dictionary", .path0 c!"DictionaryDefinition"),
  (c!"PartialInterface", .path0 c!"PartialInterfaceDefinition"),
  (c!"PartialInterfaceMixin", .path0 c!"PartialInterfaceMixinDefinition"),
  (c!"PartialDictionary", .path0 c!"PartialDictionaryDefinition"),
  (c!"PartialNamespace", .path0 c!"PartialNamespaceDefinition"),
  (c!"Enum", .path0 c!"EnumDefinition"),
  (c!"Typedef", .path0 c!"TypedefDefinition"),
  (c!"IncludesStatement", .path0 c!"IncludesStatementDefinition"),
  (c!"Implements", .path0 c!"ImplementsDefinition")]

private theorem variants_mem : .enum c!"Definition" variants ∈ crateItems :=
  (mem_crateItems _).mpr (.inr ⟨_, List.mem_of_find?_eq_some find_Definition, by decide +kernel⟩)

/-- Definitions are sorted by their kind first, in the order in which the kinds are declared. -/
theorem C77_kinds {is : List Item} (hi : expandSource = some is) (d d' : Definition) (h : rank (kind d) < rank (kind d')) :
    (definitionVal d).cmp is (definitionVal d') = some .lt := by
  rw [expandSource_eq] at hi
  cases hi
  have he := unique.enumOf variants_mem
  have key (d : Definition) : ∃ x a, definitionVal d = .variant c!"Definition" x a ∧ place x variants = some (rank (kind d)) := by
    cases d <;> exact ⟨_, _, rfl, by simp only [kind, rank]; decide +kernel⟩
  obtain ⟨x, a, e, hp⟩ := key d
  obtain ⟨y, b, e', hq⟩ := key d'
  rw [e, e']
  simp only [Val.cmp, if_pos, he, hp, hq]
  rw [if_neg (by omega), cmpNat_lt.mpr h]

/-- Definitions of a kind with the same extended attributes are sorted by the name that they begin with. -/
theorem C77_definitions {is : List Item} (hi : expandSource = some is) (s : Str) (ds : List Definition) (hs : weedleParse s = .ok ds)
    (d d' : Definition) (hd : d ∈ ds) (hk : kind d = kind d') (ha : (labelled d).1 = (labelled d').1) (i i' : Str)
    (h : (labelled d).2 = some i) (h' : (labelled d').2 = some i') (hb : Before i i') :
    (definitionVal d).cmp is (definitionVal d') = some .lt := by
  have ht : ∃ U, HasType is U (definitionVal d) :=
    hasType_elements (C51_document hi s ds hs) _ rfl _ (List.mem_map_of_mem hd)
  obtain ⟨U, ht⟩ := ht
  have hn := (C77_names (is := is) i i').mpr hb
  have lt : Ordering.lt ≠ .eq := by decide
  have inner {x n : Str} {vs vs' : List (Str × Val)} (h : definitionVal d = .variant c!"Definition" x (.struct n vs))
      (h' : definitionVal d' = .variant c!"Definition" x (.struct n vs'))
      (h'' : ∀ T, HasType is T (.struct n vs) → (Val.struct n vs).cmp is (.struct n vs') = some .lt) :
      (definitionVal d).cmp is (definitionVal d') = some .lt := by
    rw [h] at ht
    obtain ⟨T, hT, us, ws, hm⟩ : ∃ T, HasType is T (.struct n vs) ∧ ∃ us ws, .enum c!"Definition" (us ++ (x, T) :: ws) ∈ is := by
      generalize hv : Val.variant c!"Definition" x (.struct n vs) = v at ht
      clear h h'
      induction ht with
      | variant hi hm hp _ =>
        cases hv
        obtain ⟨us, ws, rfl⟩ := List.append_of_mem hm
        exact ⟨_, hp, us, ws, hi⟩
      | alias _ _ ih => exact ih hv
      | _ => cases hv
    rw [h, h', (C77_enums hi hm _ _).2]
    exact h'' T hT
  cases d <;> cases d' <;> first | exact absurd hk (by simp only [kind]; decide) | skip
  all_goals simp only [labelled, Option.some.injEq, reduceCtorEq] at ha h h'
  all_goals subst ha h h'
  all_goals first
    | exact inner rfl rfl fun T hT => C77_structs (cs := [_, _]) hi hT lt hn
    | exact inner rfl rfl fun T hT => C77_structs (cs := [_, _, _]) hi hT lt hn
    | exact inner rfl rfl fun T hT => C77_structs (cs := [_, _, _, _]) hi hT lt hn
    | exact inner rfl rfl fun T hT => C77_structs (cs := [_]) hi hT lt hn

/-! ### Cases of the theorems -/

/-- The bytes of `é` are higher than those of `z`. -/
example {is : List Item} : (identVal c!"az").cmp is (identVal c!"aé") = some .lt :=
  (C77_names _ _).mpr (.inr ⟨c!"a", 'z', 'é', [], [], rfl, rfl, by decide⟩)

/-- `A_` comes before `Aa`, and `Z` before `a`. -/
example : Before c!"A_" c!"Aa" ∧ Before c!"Z" c!"a" ∧ Before c!"a" c!"a1" :=
  ⟨.inr ⟨c!"A", '_', 'a', [], [], rfl, rfl, by decide⟩, .inr ⟨[], 'Z', 'a', [], [], rfl, rfl, by decide⟩, .inl ⟨c!"1", by decide, rfl⟩⟩

example : ∃ is, expandSource = some is ∧ HasType is (.path1 c!"Vec" (.path0 c!"Identifier")) (.list [identVal c!"b", identVal c!"a"]) ∧
    (Val.list [identVal c!"b", identVal c!"a"]).cmp is (.list [identVal c!"b", identVal c!"a", identVal c!"c"]) = some .lt := by
  have h : Item.tuple c!"Identifier" [] (.path0 c!"&str") ∈ crateItems := types_mem _ (by decide +kernel)
  have h' : HasType crateItems (.path1 c!"Vec" (.path0 c!"Identifier")) (.list [identVal c!"b", identVal c!"a"]) :=
    .list (by simp only [List.forall_mem_cons, List.not_mem_nil, false_implies, implies_true, and_true]; exact ⟨.newtype h (.str _), .newtype h (.str _)⟩)
  exact ⟨_, expandSource_eq, h', (C77_lists expandSource_eq h').2 _ []⟩

example : ∃ is us vs t, expandSource = some is ∧ .enum c!"Definition" (us ++ (c!"Interface", t) :: vs) ∈ is ∧ c!"Enum" ∈ vs.map Prod.fst :=
  ⟨_, variants.take 2, variants.drop 3, _, expandSource_eq, variants_mem, by decide +kernel⟩

set_option maxRecDepth 10000 in
/-- `interface` comes before `dictionary`, and `interface A` before `interface B`. -/
example : ∃ is a b c, expandSource = some is ∧ weedleParse c!"dictionary A { }; interface B { }; interface A { };" = .ok [a, b, c] ∧
    (definitionVal b).cmp is (definitionVal a) = some .lt ∧ (definitionVal c).cmp is (definitionVal b) = some .lt :=
  ⟨_, _, _, _, expandSource_eq, rfl, C77_kinds expandSource_eq _ _ (by decide),
    C77_definitions expandSource_eq c!"dictionary A { }; interface B { }; interface A { };" _ rfl _ _ (by simp) rfl rfl c!"A" c!"B" rfl rfl
      (.inr ⟨[], 'A', 'B', [], [], rfl, rfl, by decide⟩)⟩

end Verif.Properties
