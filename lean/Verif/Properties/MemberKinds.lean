import Verif.Proof.MemberKind
import Verif.Proof.ValueKind
import Verif.Proof.Nullable
import Verif.Properties.Kinds
import Verif.Properties.Parts
import Verif.Properties.Longest

/-!
# C61: kinds of members, types, extended attributes, values and arguments

`classifyInterface`, `classifyMixin`, `classifyType`, `classifyAttribute`, `classifyValue` and `classifyVariadic` (`Verif/Spec/MemberKind.lean`) look at a few items.
-/

namespace Verif.Properties
open Nom Spec MemberKind

/-! ## Members -/

/-- Which variant `InterfaceMember::parse` returns can be told from the first and last items, after the attributes. -/
theorem C61_interface (s r : Str) (m : InterfaceMember) (h : G.interfaceMember.parse s = .ok r m) :
    ∃ ls, Begins ls s r ∧ classifyInterface (afterAttributes ls) = interfaceMemberKind m := by
  obtain ⟨⟨t, ls, b, h1, h2, h3, h4⟩, -⟩ := interfaceMember_iff.1 h
  exact ⟨ls, ⟨t, b, h1, h2, h4⟩, kind_interface m h3⟩

/-- The words that begin a member do not decide alone: this is an operation that returns an `attribute`. -/
example : ∃ m ls, G.interfaceMember.parse c!"attribute foo(); }" = .ok c!"}" m ∧ interfaceMemberKind m = .operation ∧
    Begins ls c!"attribute foo(); }" c!"}" ∧ classifyInterface (afterAttributes ls) = .operation := by
  obtain ⟨ls, h1, h2⟩ := C61_interface c!"attribute foo(); }" c!"}" _ rfl
  exact ⟨_, ls, rfl, rfl, h1, h2⟩

example : ∃ m, G.interfaceMember.parse c!"[A] readonly maplike<long, any>;" = .ok [] m ∧ interfaceMemberKind m = .maplike ∧
    classifyInterface (afterAttributes [c!"[", c!"A", c!"]", c!"readonly", c!"maplike", c!"<", c!"long", c!",", c!"any", c!">", c!";"]) =
      .maplike := ⟨_, rfl, rfl, by decide⟩

/-- The same for mixins … -/
theorem C61_mixin (s r : Str) (m : MixinMember) (h : G.mixinMember.parse s = .ok r m) :
    ∃ ls, Begins ls s r ∧ classifyMixin (afterAttributes ls) = mixinMemberKind m := by
  obtain ⟨⟨t, ls, b, h1, h2, h3, h4⟩, -⟩ := mixinMember_iff.1 h
  exact ⟨ls, ⟨t, b, h1, h2, h4⟩, kind_mixin m h3⟩

/-- … where there are no constructors: this is an operation. -/
example : ∃ m ls, G.mixinMember.parse c!"constructor();" = .ok [] m ∧ mixinMemberKind m = .operation ∧
    Begins ls c!"constructor();" [] ∧ classifyMixin (afterAttributes ls) = .operation := by
  obtain ⟨ls, h1, h2⟩ := C61_mixin c!"constructor();" [] _ rfl
  exact ⟨_, ls, rfl, rfl, h1, h2⟩

/-- … and namespaces. -/
theorem C61_namespace (s r : Str) (m : NamespaceMember) (h : G.namespaceMember.parse s = .ok r m) :
    ∃ ls, Begins ls s r ∧ classifyMixin (afterAttributes ls) = namespaceMemberKind m := by
  obtain ⟨⟨t, ls, b, h1, h2, h3, h4⟩, -⟩ := namespaceMember_iff.1 h
  exact ⟨ls, ⟨t, b, h1, h2, h4⟩, kind_namespace m h3⟩

example : ∃ m ls, G.namespaceMember.parse c!"const long x = 1;" = .ok [] m ∧
    Begins ls c!"const long x = 1;" [] ∧ classifyMixin (afterAttributes ls) = .const := by
  obtain ⟨ls, h1, h2⟩ := C61_namespace c!"const long x = 1;" [] _ rfl
  exact ⟨_, ls, rfl, h1, h2⟩

theorem concat_parts {α β : Type} {L : α → Lang} {k : α → β} {c : List Str → β} (hk : ∀ a ls, L a ls → c ls = k a) :
    ∀ {ms : List α} {ls : List Str}, concat (ms.map L) ls → ∃ parts : List (List Str), ls = parts.flatten ∧ parts.map c = ms.map k
  | [], _, h => ⟨[], h, rfl⟩
  | m :: ms, _, h => by
    obtain ⟨a, b, rfl, h1, h2⟩ := h
    obtain ⟨ps, rfl, h3⟩ := concat_parts hk h2
    exact ⟨a :: ps, rfl, by simp [h3, hk m a h1]⟩

theorem body_parts {α β : Type} {L : α → Lang} {k : α → β} {c : List Str → β} (hk : ∀ a ls, L a ls → c ls = k a)
    {ms : List α} {ls st : List Str} (h : body L ms ls) : ∃ (start : List Str) (parts : List (List Str)),
      st ++ ls = start ++ c!"{" :: parts.flatten ++ [c!"}", c!";"] ∧ parts.map c = ms.map k := by
  obtain ⟨_, _, rfl, ⟨_, _, rfl, rfl, x, _, rfl, hx, rfl⟩, rfl⟩ := h
  obtain ⟨ps, rfl, h⟩ := concat_parts hk hx
  exact ⟨st, ps, by simp, h⟩

/-- The text of an interface, mixin or namespace (partial or not) has a part for each member, in order, from which the kind of
the member can be told. -/
theorem C61_document (s : Str) (ls : List Str) (hl : Lexes s ls) (d : Definition) (ks : List MemberKind)
    (h : weedleParse s = .ok [d]) (hk : memberKinds d = some ks) :
    ∃ (start : List Str) (parts : List (List Str)), ls = start ++ c!"{" :: parts.flatten ++ [c!"}", c!";"] ∧
      parts.map (classifyMember (kind d)) = ks := by
  obtain ⟨a, b, rfl, h1, rfl⟩ := accepted_lexes h hl
  rw [List.append_nil]
  match d, h1, hk with
  | .callbackInterface .., h1, hk =>
    cases hk
    obtain ⟨x, _, rfl, -, y, _, rfl, -, z, _, rfl, -, u, _, rfl, -, v, _, rfl, -, h2⟩ := h1
    simp only [← List.append_assoc]
    exact body_parts (fun m ls h => kind_interface m h) h2
  | .interface .., h1, hk =>
    cases hk
    obtain ⟨x, _, rfl, -, y, _, rfl, -, z, _, rfl, -, u, _, rfl, -, h2⟩ := h1
    simp only [← List.append_assoc]
    exact body_parts (fun m ls h => kind_interface m h) h2
  | .partialInterface .., h1, hk =>
    cases hk
    obtain ⟨x, _, rfl, -, y, _, rfl, -, z, _, rfl, -, u, _, rfl, -, h2⟩ := h1
    simp only [← List.append_assoc]
    exact body_parts (fun m ls h => kind_interface m h) h2
  | .interfaceMixin .., h1, hk =>
    cases hk
    obtain ⟨x, _, rfl, -, y, _, rfl, -, z, _, rfl, -, u, _, rfl, -, h2⟩ := h1
    simp only [← List.append_assoc]
    exact body_parts (fun m ls h => kind_mixin m h) h2
  | .partialInterfaceMixin .., h1, hk =>
    cases hk
    obtain ⟨x, _, rfl, -, y, _, rfl, -, z, _, rfl, -, u, _, rfl, -, v, _, rfl, -, h2⟩ := h1
    simp only [← List.append_assoc]
    exact body_parts (fun m ls h => kind_mixin m h) h2
  | .namespace .., h1, hk =>
    cases hk
    obtain ⟨x, _, rfl, -, y, _, rfl, -, z, _, rfl, -, h2⟩ := h1
    simp only [← List.append_assoc]
    exact body_parts (fun m ls h => kind_namespace m h) h2
  | .partialNamespace .., h1, hk =>
    cases hk
    obtain ⟨x, _, rfl, -, y, _, rfl, -, z, _, rfl, -, u, _, rfl, -, h2⟩ := h1
    simp only [← List.append_assoc]
    exact body_parts (fun m ls h => kind_namespace m h) h2

example : ∃ d, weedleParse c!"interface A { const long b = 1; c d(); };" = .ok [d] ∧
    ∃ (start : List Str) (parts : List (List Str)),
      [c!"interface", c!"A", c!"{", c!"const", c!"long", c!"b", c!"=", c!"1", c!";", c!"c", c!"d", c!"(", c!")", c!";", c!"}", c!";"] =
        start ++ c!"{" :: parts.flatten ++ [c!"}", c!";"] ∧
      parts.map (classifyMember (kind d)) = [.const, .operation] :=
  ⟨_, rfl, C61_document c!"interface A { const long b = 1; c d(); };" _ (lexes_sound (by decide +kernel)) _ _ rfl rfl⟩

/-! ## Types -/

/-- The kind of a type can be told from its first two items. -/
theorem C61_type (s r : Str) (t : Ty) (hr : Ended r) (h : G.type.parse s = .ok r t) :
    ∃ ls, Begins ls s r ∧ classifyType ls = typeKind t := by
  obtain ⟨u, ls, b, h1, h2, h3, h4⟩ := (C47_part .type s r t hr).1 h
  exact ⟨ls, ⟨u, b, h1, h2, h4⟩, classify_type h3⟩

/-- `unsigned` alone is a name. -/
example : ∃ t ls, G.type.parse c!"unsigned?," = .ok c!"," t ∧ typeKind t = .identifier ∧
    Begins ls c!"unsigned?," c!"," ∧ classifyType ls = .identifier := by
  obtain ⟨ls, h1, h2⟩ := C61_type c!"unsigned?," c!"," _ (.inr ⟨_, _, rfl, by decide⟩) rfl
  exact ⟨_, ls, rfl, rfl, h1, h2⟩

example : ∃ t ls, G.type.parse c!"unsigned /**/ short" = .ok [] t ∧ typeKind t = .integer ∧
    Begins ls c!"unsigned /**/ short" [] ∧ classifyType ls = .integer := by
  obtain ⟨ls, h1, h2⟩ := C61_type c!"unsigned /**/ short" [] _ (.inl rfl) rfl
  exact ⟨_, ls, rfl, rfl, h1, h2⟩

/-! ## Extended attributes -/

/-- The kind of an extended attribute can be told from what follows its name. -/
theorem C61_attribute (s r : Str) (a : ExtAttr) (hr : Ended r) (h : G.extAttr.parse s = .ok r a) :
    ∃ ls, Begins ls s r ∧ classifyAttribute ls = attrKind a := by
  obtain ⟨u, ls, b, h1, h2, h3, h4⟩ := (C47_part .extAttr s r a hr).1 h
  exact ⟨ls, ⟨u, b, h1, h2, h4⟩, classify_attribute h3⟩

example : ∃ a ls, G.extAttr.parse c!"Exposed=(Window,Worker)]" = .ok c!"]" a ∧ attrKind a = .identList ∧
    Begins ls c!"Exposed=(Window,Worker)]" c!"]" ∧ classifyAttribute ls = .identList := by
  obtain ⟨ls, h1, h2⟩ := C61_attribute c!"Exposed=(Window,Worker)]" c!"]" _ (.inr ⟨_, _, rfl, by decide⟩) rfl
  exact ⟨_, ls, rfl, rfl, h1, h2⟩

/-! ## Values -/

/-- The kind of a default value can be told from the characters of its first item, whatever follows. -/
theorem C61_default (s r : Str) (v : DefaultValue) (h : G.defaultValue.parse s = .ok r v) :
    ∃ t ls b, s = t ++ b ∧ Trivia t ∧ OpensWith r ls b ∧ classifyValue ls = defaultValueKind v := by
  obtain ⟨t, ls, b, h1, h2, h3, h4⟩ := C62_prefix (.inl .defaultValue) h
  exact ⟨t, ls, b, h1, h2, h4, classify_default h3⟩

/-- The same for the values of constants. -/
theorem C61_const (s r : Str) (v : ConstValue) (h : G.constValue.parse s = .ok r v) :
    ∃ t ls b, s = t ++ b ∧ Trivia t ∧ OpensWith r ls b ∧ classifyValue ls = constValueKind v := by
  obtain ⟨t, ls, b, h1, h2, h3, h4⟩ := C62_prefix (.inl .constValue) h
  exact ⟨t, ls, b, h1, h2, h4, classify_const h3⟩

/-- `0x1e` is a hexadecimal number and not a number with an exponent, `01e3` is a number with an exponent, and `08` is an octal
number `0` with an `8` behind it. -/
example : classifyValue [c!"0x1e"] = .hex ∧ classifyValue [c!"-01e3"] = .float ∧ classifyValue [c!"-07"] = .oct ∧
    G.constValue.parse c!"0x1e;" = .ok c!";" (.integer (.hex c!"0x1e")) ∧
    G.constValue.parse c!"-01e3;" = .ok c!";" (.float (.value c!"-01e3")) ∧
    G.constValue.parse c!"08;" = .ok c!"8;" (.integer (.oct c!"0")) := ⟨by decide, by decide, by decide, rfl, rfl, rfl⟩

example : ∃ t ls b, c!" \"0x1e\" x" = t ++ b ∧ Trivia t ∧ OpensWith c!"x" ls b ∧ classifyValue ls = .string :=
  C61_default c!" \"0x1e\" x" c!"x" (.string c!"0x1e") rfl

/-! ## Arguments -/

/-- An argument is variadic exactly if its last item but one is `...`. -/
theorem C61_argument (s r : Str) (a : Argument) (h : G.argument.parse s = .ok r a) :
    ∃ t ls b, s = t ++ b ∧ Trivia t ∧ OpensWith r ls b ∧ classifyVariadic ls = isVariadic a := by
  obtain ⟨t, ls, b, h1, h2, h3, h4⟩ := C62_prefix (.inl .argument) h
  exact ⟨t, ls, b, h1, h2, h4, classify_argument h3⟩

example : ∃ a t ls b, G.argument.parse c!"[A(B... c)] D... e)" = .ok c!")" a ∧ isVariadic a = true ∧
    c!"[A(B... c)] D... e)" = t ++ b ∧ Trivia t ∧ OpensWith c!")" ls b ∧ classifyVariadic ls = true := by
  obtain ⟨t, ls, b, h⟩ := C61_argument c!"[A(B... c)] D... e)" c!")" _ rfl
  exact ⟨_, t, ls, b, rfl, rfl, h⟩

/-- A type has a `?` exactly if its last item is one, whatever follows. -/
theorem C61_nullable (s r : Str) (t : Ty) (h : G.type.parse s = .ok r t) :
    ∃ u ls b, s = u ++ b ∧ Trivia u ∧ OpensWith r ls b ∧ endsNullable ls = nullable t := by
  obtain ⟨u, ls, b, h1, h2, h3, h4⟩ := C62_prefix (.inl .type) h
  exact ⟨u, ls, b, h1, h2, h4, nullable_type h3⟩

/-- A `?` that is not part of the type is left. -/
example : ∃ t u ls b, G.type.parse c!"Promise<any>? x" = .ok c!"? x" t ∧ nullable t = false ∧
    c!"Promise<any>? x" = u ++ b ∧ Trivia u ∧ OpensWith c!"? x" ls b ∧ endsNullable ls = false := by
  obtain ⟨u, ls, b, h1, h2, h3, h4⟩ := C61_nullable c!"Promise<any>? x" c!"? x" _ rfl
  exact ⟨_, u, ls, b, rfl, rfl, h1, h2, h3, h4⟩

/-- The kind of the type of a constant can be told from its first two items, and whether it has a `?` from its last one. -/
theorem C61_constType (s r : Str) (t : ConstType) (h : G.constType.parse s = .ok r t) :
    ∃ u ls b, s = u ++ b ∧ Trivia u ∧ OpensWith r ls b ∧ classifyConst ls = constKind t ∧ endsNullable ls = nullableConst t := by
  obtain ⟨u, ls, b, h1, h2, h3, h4⟩ := C62_prefix (.inl .constType) h
  exact ⟨u, ls, b, h1, h2, h4, classify_constType h3, nullable_constType h3⟩

/-- `any` is a name here. -/
example : ∃ t u ls b, G.constType.parse c!"any? x" = .ok c!"x" t ∧ constKind t = .identifier ∧ nullableConst t = true ∧
    c!"any? x" = u ++ b ∧ Trivia u ∧ OpensWith c!"x" ls b ∧ classifyConst ls = .identifier ∧ endsNullable ls = true := by
  obtain ⟨u, ls, b, h1, h2, h3, h4, h5⟩ := C61_constType c!"any? x" c!"x" _ rfl
  exact ⟨_, u, ls, b, rfl, rfl, rfl, h1, h2, h3, h4, h5⟩

/-- The result of an operation is `undefined` exactly if its first item is. -/
theorem C61_return (s r : Str) (t : ReturnType) (h : G.returnType.parse s = .ok r t) :
    ∃ u ls b, s = u ++ b ∧ Trivia u ∧ OpensWith r ls b ∧ (ls.head? = some c!"undefined" ↔ t = .undefined) := by
  obtain ⟨u, ls, b, h1, h2, h3, h4⟩ := C62_prefix (.inl .returnType) h
  exact ⟨u, ls, b, h1, h2, h4, iff_of_eq (classify_return h3)⟩

example : ∃ u ls b, c!"_undefined? x" = u ++ b ∧ Trivia u ∧ OpensWith c!"x" ls b ∧ ls.head? ≠ some c!"undefined" := by
  obtain ⟨u, ls, b, h1, h2, h3, h4⟩ := C61_return c!"_undefined? x" c!"x" _ rfl
  exact ⟨u, ls, b, h1, h2, h3, fun h => nomatch h4.1 h⟩

end Verif.Properties
