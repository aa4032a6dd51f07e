import Verif.Source.ExpandLib
import Verif.Source.ExpandRest
import Verif.Source.Check

/-!
# The items of all files

`/repo/src/*.rs` with all macros of the crate expanded.
-/

namespace Verif.Source

set_option maxRecDepth 100000
set_option Elab.async false

theorem macros_macros : macrosOf macros_rs = some (macros.take 12) := sameMacros?_eq (by decide +kernel)
theorem macros_term : macrosOf term_rs = some ((macros.drop 12).take 4) := sameMacros?_eq (by decide +kernel)
theorem macros_whitespace : macrosOf whitespace_rs = some (macros.drop 16) := sameMacros?_eq (by decide +kernel)
theorem macros_argument : macrosOf argument_rs = some [] := sameMacros?_eq (by decide +kernel)
theorem macros_attribute : macrosOf attribute_rs = some [] := sameMacros?_eq (by decide +kernel)
theorem macros_common : macrosOf common_rs = some [] := sameMacros?_eq (by decide +kernel)
theorem macros_dictionary : macrosOf dictionary_rs = some [] := sameMacros?_eq (by decide +kernel)
theorem macros_interface : macrosOf interface_rs = some [] := sameMacros?_eq (by decide +kernel)
theorem macros_lib : macrosOf lib_rs = some [] := sameMacros?_eq (by decide +kernel)
theorem macros_literal : macrosOf literal_rs = some [] := sameMacros?_eq (by decide +kernel)
theorem macros_mixin : macrosOf mixin_rs = some [] := sameMacros?_eq (by decide +kernel)
theorem macros_namespace : macrosOf namespace_rs = some [] := sameMacros?_eq (by decide +kernel)
theorem macros_types : macrosOf types_rs = some [] := sameMacros?_eq (by decide +kernel)

theorem mapM_cons_some {α β : Type} {f : α → Option β} {x : α} {xs : List α} {y : β} {ys : List β} (h : f x = some y)
    (hs : xs.mapM f = some ys) : (x :: xs).mapM f = some (y :: ys) := by
  simp [h, hs]

theorem mapM_nil_some {α β : Type} (f : α → Option β) : ([] : List α).mapM f = some [] := by simp

theorem bind_some_map {α β γ : Type} {m : Option α} {a : α} {f : α → Option β} {b : β} (g : β → γ) (h : m = some a)
    (h' : f a = some b) : (do let a ← m; let b ← f a; some (g b)) = some (g b) := by
  simp [h, h']

theorem map_some {α β : Type} {m : Option α} {a : α} (g : α → β) (h : m = some a) :
    (do let a ← m; some (g a)) = some (g a) := by
  simp [h]

theorem readCrateMacros_eq : readCrateMacros = some macros := by
  unfold readCrateMacros
  exact map_some List.flatten <|
    mapM_cons_some macros_macros <|
    mapM_cons_some macros_term <|
    mapM_cons_some macros_whitespace <|
    mapM_cons_some macros_argument <|
    mapM_cons_some macros_attribute <|
    mapM_cons_some macros_common <|
    mapM_cons_some macros_dictionary <|
    mapM_cons_some macros_interface <|
    mapM_cons_some macros_lib <|
    mapM_cons_some macros_literal <|
    mapM_cons_some macros_mixin <|
    mapM_cons_some macros_namespace <|
    mapM_cons_some macros_types <|
    mapM_nil_some _

/-- The items of the crate, of the files `/repo/src/*.rs`. -/
def crateItems : List Item :=
  [argumentItems, attributeItems, commonItems, dictionaryItems, interfaceItems, libItems, literalItems, mixinItems,
    namespaceItems, termItems, typesItems, whitespaceItems].flatten

theorem expandSource_eq : expandSource = some crateItems := by
  unfold expandSource crateItems
  exact bind_some_map List.flatten readCrateMacros_eq <|
    mapM_cons_some expand_argument <|
    mapM_cons_some expand_attribute <|
    mapM_cons_some expand_common <|
    mapM_cons_some expand_dictionary <|
    mapM_cons_some expand_interface <|
    mapM_cons_some expand_lib <|
    mapM_cons_some expand_literal <|
    mapM_cons_some expand_mixin <|
    mapM_cons_some expand_namespace <|
    mapM_cons_some expand_term <|
    mapM_cons_some expand_types <|
    mapM_cons_some expand_whitespace <|
    mapM_nil_some _

/-! ## Nothing is missing, nothing is added -/

theorem mem_pick {α : Type} {is : List Nat} {l : List α} (h : ∀ i < l.length, i ∈ is) (a : α) : a ∈ pick is l ↔ a ∈ l := by
  simp only [pick, List.mem_filterMap]
  constructor
  · rintro ⟨i, _, h⟩
    exact List.mem_of_getElem? h
  · intro ha
    obtain ⟨i, hi, rfl⟩ := List.mem_iff_getElem.mp ha
    exact ⟨i, h i hi, by simp [hi]⟩

/-- All places up to `n` occur. -/
def covers (is : List Nat) (n : Nat) : Bool := (List.range n).all (is.contains ·)

theorem covers_mem {is : List Nat} {n : Nat} (h : covers is n = true) : ∀ i < n, i ∈ is := by
  intro i hi
  simp only [covers, List.all_eq_true, List.mem_range] at h
  simpa using h i hi

theorem covers_argument : covers argumentOrder (argumentDecls.flatMap Decl.lower ++ argumentTypes).length = true := by decide +kernel
theorem covers_attribute : covers attributeOrder (attributeDecls.flatMap Decl.lower ++ attributeTypes).length = true := by decide +kernel
theorem covers_common : covers commonOrder (commonDecls.flatMap Decl.lower ++ commonTypes).length = true := by decide +kernel
theorem covers_dictionary : covers dictionaryOrder (dictionaryDecls.flatMap Decl.lower ++ dictionaryTypes).length = true := by decide +kernel
theorem covers_interface : covers interfaceOrder (interfaceDecls.flatMap Decl.lower ++ interfaceTypes).length = true := by decide +kernel
theorem covers_lib : covers libOrder (libDecls.flatMap Decl.lower ++ libTypes).length = true := by decide +kernel
theorem covers_literal : covers literalOrder (literalDecls.flatMap Decl.lower ++ literalTypes).length = true := by decide +kernel
theorem covers_mixin : covers mixinOrder (mixinDecls.flatMap Decl.lower ++ mixinTypes).length = true := by decide +kernel
theorem covers_namespace : covers namespaceOrder (namespaceDecls.flatMap Decl.lower ++ namespaceTypes).length = true := by decide +kernel
theorem covers_term : covers termOrder (termDecls.flatMap Decl.lower ++ termTypes).length = true := by decide +kernel
theorem covers_types : covers typesOrder (typesDecls.flatMap Decl.lower ++ typesTypes).length = true := by decide +kernel
theorem covers_whitespace : covers whitespaceOrder (whitespaceDecls.flatMap Decl.lower ++ whitespaceTypes).length = true := by decide +kernel

/-- The structs without named fields and the derived traits of the files `/repo/src/*.rs`. -/
def crateTypes : List Item :=
  argumentTypes ++ attributeTypes ++ commonTypes ++ dictionaryTypes ++ interfaceTypes ++ libTypes ++ literalTypes ++
  mixinTypes ++ namespaceTypes ++ termTypes ++ typesTypes ++ whitespaceTypes

theorem mem_crateItems (it : Item) : it ∈ crateItems ↔
    (it = .entry c!"parse" parseEntry ∨ it ∈ crateTypes) ∨ ∃ d ∈ decls, it ∈ d.lower := by
  have key {is : List Nat} {ds : List Decl} {ts : List Item}
      (h : covers is (ds.flatMap Decl.lower ++ ts).length = true) :
      it ∈ pick is (ds.flatMap Decl.lower ++ ts) ↔ it ∈ ds.flatMap Decl.lower ∨ it ∈ ts := by
    rw [mem_pick (covers_mem h), List.mem_append]
  rw [← List.mem_flatMap]
  simp only [crateItems, List.flatten_cons, List.flatten_nil, List.append_nil, List.mem_append, argumentItems, attributeItems,
    commonItems, dictionaryItems, interfaceItems, libItems, literalItems, mixinItems, namespaceItems, termItems, typesItems,
    whitespaceItems, List.mem_cons, key covers_argument, key covers_attribute, key covers_common, key covers_dictionary,
    key covers_interface, key covers_lib, key covers_literal, key covers_mixin, key covers_namespace, key covers_term,
    key covers_types, key covers_whitespace, decls, crateTypes, List.flatMap_append]
  constructor
  · rintro ((h | h) | (h | h) | (h | h) | (h | h) | (h | h) | (h | h | h) | (h | h) | (h | h) | (h | h) | (h | h) | (h | h) | h | h) <;>
      simp only [h, true_or, or_true]
  · rintro ((h | ((((((((((h | h) | h) | h) | h) | h) | h) | h) | h) | h) | h) | h) | ((((((((((h | h) | h) | h) | h) | h) | h) | h) | h) | h) | h) | h) <;>
      simp only [h, true_or, or_true]

theorem types_inert : ∀ it ∈ crateTypes, it.inert = true := by
  have : crateTypes.all Item.inert = true := by decide +kernel
  simpa using this

theorem decls_clean : ∀ d ∈ decls, d.clean = true := by
  have : decls.all Decl.clean = true := by decide +kernel
  simpa using this

theorem expansion : Expansion decls crateItems where
  names := names_nodup
  clean := decls_clean
  has d hd it hit := (mem_crateItems it).mpr (.inr ⟨d, hd, hit⟩)
  only it hit := by
    rcases (mem_crateItems it).mp hit with (rfl | h) | h
    · exact .inr rfl
    · exact .inr (types_inert it h)
    · exact .inl h

end Verif.Source
