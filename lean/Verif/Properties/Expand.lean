import Verif.Source.Expand
import Verif.Properties.Source

/-!
# C50: the macros of the crate, expanded, give the same parsers

`expandSource` expands the macros in the text of the source by the rules in `/repo/src/macros.rs`, `term.rs` and
`whitespace.rs`, and reads the Rust items that result; `run is n T` executes the `parse` method of the type `T`, with
at most `n` nested calls.
-/

namespace Verif.Properties
open Nom Source

/-- The result of `T::parse` on `s`, by the text of the crate with its macros expanded. -/
def ExpandedReturns (T : RTy) (s : Str) (x : Res Char Val) : Prop :=
  ∃ is, expandSource = some is ∧ ∃ N, ∀ n ≥ N, run is n T s = x

/-- All macros of the crate can be expanded, and no type has two implementations of `Parse`. -/
theorem C50_expand : ∃ is, expandSource = some is ∧ (is.filterMap Item.defines).Nodup :=
  ⟨crateItems, expandSource_eq, by decide +kernel⟩

/-- `/repo/src/argument.rs:25-30` -/
example : Item.struct c!"VariadicArgument" [] [(c!"attributes", .path1 c!"Option" (.path0 c!"ExtendedAttributeList")),
    (c!"type_", .path0 c!"Type"), (c!"ellipsis", .path0 c!"Ellipsis"), (c!"identifier", .path0 c!"Identifier")] ∈
    expandSource.getD [] := by
  rw [expandSource_eq]
  decide +kernel

/-- What the declarations mean (`Verif/Source/Meaning.lean`) is what their expansion does. -/
theorem C50_same {ds : List Decl} {is : List Item} (hd : readSource = some ds) (hi : expandSource = some is) :
    ∀ n T s, run is n T s = parse ds n T s := by
  rw [readSource_eq] at hd
  rw [expandSource_eq] at hi
  cases hd
  cases hi
  intro n T s
  rw [run_eq expansion]

example : ∃ ds is, readSource = some ds ∧ expandSource = some is ∧ ds ≠ [] ∧ is ≠ [] :=
  ⟨decls, crateItems, readSource_eq, expandSource_eq, by decide, by decide⟩

/-- For each type, the expanded text returns what the model returns. -/
theorem C50_parser {α : Type} {T : RTy} {g : G α} {v : α → Val} (h : TypeOf T g v) (s : Str) :
    ExpandedReturns T s (resMap v (g.parse s)) := by
  obtain ⟨ds, hd, N, hN⟩ := C48_parser h s
  exact ⟨crateItems, expandSource_eq, N, fun n hn => by rw [C50_same hd expandSource_eq, hN n hn]⟩

example : ExpandedReturns (.path0 c!"Default") c!"= null x" (.ok c!"x" (.struct c!"Default" [(c!"assign", .token c!"Assign"),
    (c!"value", .variant c!"DefaultValue" c!"Null" (.token c!"Null"))])) :=
  C50_parser .default _

/-- `E::from(x)` exists exactly for the payloads `x` of the variants of `E`, and makes that variant. No two variants of
an enum have the same payload, so these implementations do not conflict. -/
theorem C50_from {is : List Item} (hi : expandSource = some is) {E : Str} {vs : List (Str × RTy)} (h : .enum E vs ∈ is) :
    (∀ T v, .from T E v ∈ is ↔ (v, T) ∈ vs) ∧ (vs.map Prod.snd).Nodup := by
  rw [expandSource_eq] at hi
  cases hi
  have hd : Decl.enum E vs ∈ decls := by
    rcases (mem_crateItems _).mp h with (h | h) | ⟨d, hd, h⟩
    · simp at h
    · cases types_inert _ h
    · cases d <;> simp only [Decl.lower] at h
      case enum n ws => simp at h; rw [h.1, h.2]; exact hd
      case fn => split at h <;> simp at h
      all_goals simp at h
  refine ⟨fun T v => ⟨fun hf => ?_, fun hv => ?_⟩, by simpa [Decl.clean] using decls_clean _ hd⟩
  · rcases (mem_crateItems _).mp hf with (hf | hf) | ⟨d, hd', hf⟩
    · simp at hf
    · cases types_inert _ hf
    · cases d <;> simp only [Decl.lower] at hf
      case enum n ws =>
        simp at hf
        obtain ⟨x, t, hx, rfl, rfl, rfl⟩ := hf
        cases eq_of_name names_nodup hd hd' rfl
        exact hx
      case fn => split at hf <;> simp at hf
      all_goals simp at hf
  · exact (mem_crateItems _).mpr (.inr ⟨_, hd, by simp [Decl.lower]; exact ⟨v, T, hv, rfl, rfl⟩⟩)

example : Item.enum c!"FloatingPointType" [(c!"Float", .path0 c!"FloatType"), (c!"Double", .path0 c!"DoubleType")] ∈
    expandSource.getD [] ∧ Item.from (.path0 c!"DoubleType") c!"FloatingPointType" c!"Double" ∈ expandSource.getD [] := by
  rw [expandSource_eq]
  decide +kernel

/-- The function `weedle::parse`, as it is in the text: `none` is the failure of its assertion. -/
theorem C50_parse {is : List Item} {e : Entry} (hi : expandSource = some is) (h : .entry c!"parse" e ∈ is) (s : Str) :
    ∃ N, ∀ n ≥ N, e.eval (run is n) s =
      match weedleParse s with
      | .ok ds => some (.ok [] (.list (ds.map definitionVal)))
      | .err x => some (.err x)
      | .panic => none
      | .diverge => some .diverge := by
  rw [expandSource_eq] at hi
  cases hi
  have he : e = parseEntry := by
    rcases (mem_crateItems _).mp h with (h | h) | ⟨d, hd, h⟩
    · simpa using h
    · have : crateTypes.all (fun it => match it with | .entry _ _ => false | _ => true) = true := by decide +kernel
      cases List.all_eq_true.mp this _ h
    · cases d <;> simp only [Decl.lower] at h
      case fn => split at h <;> simp at h
      all_goals simp at h
  subst he
  obtain ⟨is, hi, N, hN⟩ := C50_parser .definitions s
  rw [expandSource_eq] at hi
  cases hi
  refine ⟨N, fun n hn => ?_⟩
  have : parseEntry.eval (run crateItems n) s =
      match run crateItems n (.path0 c!"Definitions") s with
      | .ok r v => if r.isEmpty then some (.ok [] v) else none
      | x => some x := rfl
  rw [this, hN n hn]
  unfold weedleParse
  cases e : G.definitions.parse s with
  | ok r as => cases r <;> simp [resMap]
  | err x => rfl
  | diverge => rfl

example : ∃ e, Item.entry c!"parse" e ∈ expandSource.getD [] := by
  rw [expandSource_eq]
  exact ⟨parseEntry, (mem_crateItems _).mpr (.inl (.inl rfl))⟩

end Verif.Properties
