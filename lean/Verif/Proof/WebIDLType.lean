import Verif.Proof.WebIDL

/-! # Web IDL is contained in the grammar of the parser: types, attributes and arguments -/

namespace Verif.WebIDL
open Nom Spec Spec.WebIDL

theorem alt {p : Alt → Prop} {a : Alt} {l : List Alt} (h1 : p a) (h2 : ∀ x ∈ l, p x) : ∀ x ∈ a :: l, p x :=
  List.forall_mem_cons.2 ⟨h1, h2⟩

theorem done {p : Alt → Prop} : ∀ x ∈ ([] : List Alt), p x := fun _ h => nomatch h

/-- The alternatives are those of another nonterminal with the same meaning. -/
theorem same {N N' : NonTerminal} (h : M N' = M N) : ∀ ls, cat ([Symbol.n N'].map S) ls → M N ls := by
  intro ls hl
  exact h ▸ hl

/-! ## Lists -/

theorem tail_nil {α : Type} {sep : Lang} {L : α → Lang} : Tail sep L [] := ⟨[], fun A l0 h => by
  rw [List.append_nil]
  exact h⟩

theorem tail_cons {α : Type} {sep : Lang} {L : α → Lang} {s a b : List Str} (hs : sep s) (ha : Ex L a)
    (hb : Tail sep L b) : Tail sep L (s ++ (a ++ b)) := by
  obtain ⟨x, hx⟩ := ha
  obtain ⟨xs, h⟩ := hb
  exact ⟨x :: xs, fun A l0 hA => sepBy_cons hA hs (h _ _ hx)⟩

theorem tail_list {α : Type} {sep : Lang} {L : α → Lang} {a b : List Str} (ha : Ex L a) (hb : Tail sep L b) :
    ∃ xs : List α, xs ≠ [] ∧ sepBy sep (xs.map L) (a ++ b) := by
  obtain ⟨x, hx⟩ := ha
  obtain ⟨xs, h⟩ := hb
  exact ⟨x :: xs, by simp, h _ _ hx⟩

theorem closed_Arguments : Closed .Arguments := by
  refine alt ?_ (alt ?_ done)
  · rintro _ ⟨_, _, rfl, rfl, a, b, rfl, ha, hb⟩
    exact tail_cons rfl ha hb
  · rintro _ rfl
    exact tail_nil

theorem closed_ArgumentList : Closed .ArgumentList := by
  refine alt ?_ (alt ?_ done)
  · rintro _ ⟨a, b, rfl, ha, hb⟩
    obtain ⟨xs, -, h⟩ := tail_list ha hb
    rw [← arguments_map] at h
    exact ⟨xs, h⟩
  · rintro _ rfl
    exact ⟨[], rfl⟩

theorem closed_ExtendedAttributes : Closed .ExtendedAttributes := by
  refine alt ?_ (alt ?_ done)
  · rintro _ ⟨_, _, rfl, rfl, a, b, rfl, ha, hb⟩
    exact tail_cons rfl ha hb
  · rintro _ rfl
    exact tail_nil

theorem closed_ExtendedAttributeList : Closed .ExtendedAttributeList := by
  refine alt ?_ (alt ?_ done)
  · rintro _ ⟨_, _, rfl, rfl, a, _, rfl, ha, b, _, rfl, hb, rfl⟩
    obtain ⟨xs, -, h⟩ := tail_list ha hb
    refine ⟨some xs, ?_⟩
    unfold attributes brackets
    rw [extAttrs_map, ← List.append_assoc a]
    exact seq_mk rfl (seq_mk h rfl)
  · rintro _ rfl
    exact ⟨none, rfl⟩

theorem closed_Identifiers : Closed .Identifiers := by
  refine alt ?_ (alt ?_ done)
  · rintro _ ⟨_, _, rfl, rfl, a, b, rfl, ha, hb⟩
    exact tail_cons rfl ha.name hb
  · rintro _ rfl
    exact tail_nil

theorem closed_IdentifierList : Closed .IdentifierList := by
  refine alt ?_ done
  rintro _ ⟨a, b, rfl, ha, hb⟩
  obtain ⟨xs, -, h⟩ := tail_list ha.name hb
  exact ⟨xs, h⟩

theorem closed_UnionMemberTypes : Closed .UnionMemberTypes := by
  refine alt ?_ (alt ?_ done)
  · rintro _ ⟨_, _, rfl, rfl, a, b, rfl, ha, hb⟩
    exact tail_cons rfl ha hb
  · rintro _ rfl
    exact tail_nil

/-! ## Types -/

theorem closed_Null : Closed .Null := by
  refine alt ?_ (alt ?_ done)
  · rintro _ rfl
    exact ⟨true, rfl⟩
  · rintro _ rfl
    exact ⟨false, rfl⟩

theorem closed_OptionalLong : Closed .OptionalLong := by
  refine alt ?_ (alt ?_ done)
  · rintro _ rfl
    exact ⟨⟨.longLong false, seq_nil rfl (seq_mk (a := [_]) rfl rfl)⟩,
      ⟨.longLong true, seq_mk (a := [_]) rfl (seq_mk (a := [_]) rfl rfl)⟩⟩
  · rintro _ rfl
    exact ⟨⟨.long false, seq_nil rfl rfl⟩, ⟨.long true, seq_mk (a := [_]) rfl rfl⟩⟩

theorem closed_IntegerType : Closed .IntegerType := by
  refine alt ?_ (alt ?_ done)
  · rintro _ rfl
    exact ⟨⟨.short false, seq_nil rfl rfl⟩, ⟨.short true, seq_mk (a := [_]) rfl rfl⟩⟩
  · rintro _ ⟨_, a, rfl, rfl, ha⟩
    exact ha

theorem closed_UnsignedIntegerType : Closed .UnsignedIntegerType := by
  refine alt ?_ (alt ?_ done)
  · rintro _ ⟨_, a, rfl, rfl, ha⟩
    exact ha.2
  · rintro _ h
    exact h.1

theorem closed_FloatType : Closed .FloatType := by
  refine alt ?_ (alt ?_ done)
  · rintro _ rfl
    exact ⟨⟨.float false, seq_nil rfl rfl⟩, ⟨.float true, seq_mk (a := [_]) rfl rfl⟩⟩
  · rintro _ rfl
    exact ⟨⟨.double false, seq_nil rfl rfl⟩, ⟨.double true, seq_mk (a := [_]) rfl rfl⟩⟩

theorem closed_UnrestrictedFloatType : Closed .UnrestrictedFloatType := by
  refine alt ?_ (alt ?_ done)
  · rintro _ ⟨_, a, rfl, rfl, ha⟩
    exact ha.2
  · rintro _ h
    exact h.1

theorem hd1_word {w : Str} {r : List Str} (h : w ∉ c!"any" :: c!"undefined" :: stop) : Hd1 (w :: r) := ⟨w, r, rfl, h⟩

theorem hd1_integer {t : IntegerType} {ls : List Str} (h : integerType t ls) : Hd1 ls := by
  rcases t with (_ | _) | (_ | _) | (_ | _) <;> obtain ⟨_, _, rfl, rfl, h⟩ := h <;>
    first
      | exact hd1_word (by decide)
      | (obtain ⟨_, _, rfl, rfl, rfl⟩ := h; exact hd1_word (by decide))
      | (obtain rfl := h; exact hd1_word (by decide))

theorem hd1_floating {t : FloatingPointType} {ls : List Str} (h : floatingPointType t ls) : Hd1 ls := by
  rcases t with (_ | _) | (_ | _) <;> obtain ⟨_, _, rfl, rfl, h⟩ := h <;>
    first
      | exact hd1_word (by decide)
      | (obtain rfl := h; exact hd1_word (by decide))

theorem nullable_builtin (b : Builtin) (h : builtinWord b ∉ c!"any" :: c!"undefined" :: stop) :
    NullableL [builtinWord b] := ⟨fun q _ hq => ⟨.builtin b q, seq_mk rfl hq⟩, hd1_word h⟩

theorem nullable_word {w : Str} (h : w ∉ c!"any" :: c!"undefined" :: stop) (h1 : Regex.word.Matches w) (h2 : w ∉ typeWords) :
    NullableL [w] := ⟨fun q _ hq => ⟨.identifier w q, seq_mk (word_typeName h1 h2) hq⟩, hd1_word h⟩

/-- Whether `w` is a word. -/
def isWord : Str → Bool
  | [] => false
  | c :: v => c.isAlpha && v.all isIdentChar

theorem word_of {w : Str} (h : isWord w = true) : Regex.word.Matches w := by
  cases w with
  | nil => simp [isWord] at h
  | cons c v =>
    simp [isWord] at h
    exact word_iff.2 ⟨c, v, rfl, h.1, h.2⟩

theorem closed_StringType : Closed .StringType := by
  refine alt ?_ (alt ?_ (alt ?_ done))
  · rintro _ rfl
    exact ⟨nullable_builtin .byteString (by decide), .byte, rfl⟩
  · rintro _ rfl
    exact ⟨nullable_builtin .domString (by decide), .dom, rfl⟩
  · rintro _ rfl
    exact ⟨nullable_builtin .usvString (by decide), .usv, rfl⟩

theorem hk {w : Str} {r : List Str} (h : w ∉ [c!"ByteString", c!"DOMString", c!"USVString"]) : Hk (w :: r) := ⟨w, r, rfl, h⟩

theorem hk_integer {t : IntegerType} {ls : List Str} (h : integerType t ls) : Hk ls := by
  cases t with
  | longLong u => cases u <;> obtain ⟨_, _, rfl, rfl, _, _, rfl, rfl, rfl⟩ := h <;> exact hk (by decide)
  | long u => cases u <;> obtain ⟨_, _, rfl, rfl, rfl⟩ := h <;> exact hk (by decide)
  | short u => cases u <;> obtain ⟨_, _, rfl, rfl, rfl⟩ := h <;> exact hk (by decide)

theorem hk_floating {t : FloatingPointType} {ls : List Str} (h : floatingPointType t ls) : Hk ls := by
  cases t with
  | float u => cases u <;> obtain ⟨_, _, rfl, rfl, rfl⟩ := h <;> exact hk (by decide)
  | double u => cases u <;> obtain ⟨_, _, rfl, rfl, rfl⟩ := h <;> exact hk (by decide)

theorem closed_BufferRelatedType : Closed .BufferRelatedType := by
  refine alt ?_ (alt ?_ (alt ?_ (alt ?_ (alt ?_ (alt ?_ (alt ?_ (alt ?_ (alt ?_ (alt ?_ (alt ?_ (alt ?_ (alt ?_
    done)))))))))))) <;> rintro _ rfl
  · exact ⟨nullable_builtin .arrayBuffer (by decide), hk (by decide)⟩
  · exact ⟨nullable_builtin .dataView (by decide), hk (by decide)⟩
  · exact ⟨nullable_builtin .int8Array (by decide), hk (by decide)⟩
  · exact ⟨nullable_builtin .int16Array (by decide), hk (by decide)⟩
  · exact ⟨nullable_builtin .int32Array (by decide), hk (by decide)⟩
  · exact ⟨nullable_builtin .uint8Array (by decide), hk (by decide)⟩
  · exact ⟨nullable_builtin .uint16Array (by decide), hk (by decide)⟩
  · exact ⟨nullable_builtin .uint32Array (by decide), hk (by decide)⟩
  · exact ⟨nullable_builtin .uint8ClampedArray (by decide), hk (by decide)⟩
  · exact ⟨nullable_word (by decide) (word_of (by decide)) (by decide), hk (by decide)⟩
  · exact ⟨nullable_word (by decide) (word_of (by decide)) (by decide), hk (by decide)⟩
  · exact ⟨nullable_builtin .float32Array (by decide), hk (by decide)⟩
  · exact ⟨nullable_builtin .float64Array (by decide), hk (by decide)⟩

theorem seq_end {A B : Lang} {a : List Str} (ha : A a) (hb : B []) : (A ⨾ B) a := ⟨a, [], by simp, ha, hb⟩

theorem closed_PrimitiveType : Closed .PrimitiveType := by
  refine alt ?_ (alt ?_ (alt ?_ (alt ?_ (alt ?_ (alt ?_ done)))))
  · rintro _ ⟨t, h⟩
    exact ⟨⟨fun q _ hq => ⟨.integer t q, seq_mk h hq⟩, hd1_integer h⟩, fun q _ hq => ⟨.integer t q, seq_mk h hq⟩, hk_integer h⟩
  · rintro _ ⟨t, h⟩
    exact ⟨⟨fun q _ hq => ⟨.floatingPoint t q, seq_mk h hq⟩, hd1_floating h⟩,
      fun q _ hq => ⟨.floatingPoint t q, seq_mk h hq⟩, hk_floating h⟩
  · rintro _ rfl
    exact ⟨nullable_builtin .boolean (by decide), fun q _ hq => ⟨.boolean q, seq_mk rfl hq⟩, hk (by decide)⟩
  · rintro _ rfl
    exact ⟨nullable_builtin .byte (by decide), fun q _ hq => ⟨.byte q, seq_mk rfl hq⟩, hk (by decide)⟩
  · rintro _ rfl
    exact ⟨nullable_builtin .octet (by decide), fun q _ hq => ⟨.octet q, seq_mk rfl hq⟩, hk (by decide)⟩
  · rintro _ rfl
    exact ⟨nullable_word (by decide) (word_of (by decide)) (by decide), fun q _ hq => ⟨.identifier c!"bigint" q,
      seq_mk (word_typeName (word_of (by decide)) (by decide)) hq⟩, hk (by decide)⟩

theorem closed_ConstType : Closed .ConstType := by
  refine alt ?_ (alt ?_ done)
  · rintro ls h
    have := h.2.1 false [] rfl
    rwa [List.append_nil] at this
  · rintro _ h
    obtain ⟨i, hi⟩ := Idf.typeName h (ws := [c!"long", c!"short", c!"float", c!"double", c!"boolean", c!"byte", c!"octet"])
      (terminals_of (Ns := [.IntegerType, .FloatType, .PrimitiveType]) (by decide +kernel))
    exact ⟨.identifier i false, seq_end hi rfl⟩

theorem closed_RecordType : Closed .RecordType := by
  refine alt ?_ done
  rintro _ ⟨_, _, rfl, rfl, _, _, rfl, rfl, k, _, rfl, ⟨-, K, hk⟩, _, _, rfl, rfl, v, _, rfl, ⟨⟨V, hv⟩, -⟩, rfl⟩
  refine ⟨⟨fun q b hq => ⟨.record K V q, ?_⟩, hd1_word (by decide)⟩, ⟨_, _, rfl, by decide⟩⟩
  unfold nonAnyType angles comma
  simp only [seq_assoc, List.append_assoc]
  exact seq_mk rfl (seq_mk rfl (seq_mk hk (seq_mk rfl (seq_mk hv (seq_mk rfl hq)))))

theorem Hd1.not_any {a : List Str} (h : Hd1 a) : ¬ [c!"any"] <+: a := by
  obtain ⟨w, r, rfl, h⟩ := h
  intro hp
  simp at hp
  rw [← hp] at h
  exact h (by decide)

/-- the meaning of `DistinguishableType` -/
def DistL : Lang := fun ls => Ex nonAnyType ls ∧ Hd ls ∧ ¬ [c!"any"] <+: ls

theorem NullableL.dist {a b : List Str} (h : NullableL a) (hb : Ex (fun q => optTok q c!"?") b) : DistL (a ++ b) := by
  obtain ⟨q, hb⟩ := hb
  exact ⟨h.1 q b hb, (h.2.append b).hd, (h.2.append b).not_any⟩

theorem closed_DistinguishableType : Closed .DistinguishableType := by
  refine alt ?_ (alt ?_ (alt ?_ (alt ?_ (alt ?_ (alt ?_ (alt ?_ (alt ?_ (alt ?_ (alt ?_ done)))))))))
  · rintro _ ⟨a, b, rfl, ha, hb⟩
    exact NullableL.dist ha.1 hb
  · rintro _ ⟨a, b, rfl, ha, hb⟩
    exact NullableL.dist ha.1 hb
  · rintro _ ⟨a, b, rfl, ha, hb⟩
    exact NullableL.dist ⟨fun q b hq => Idf.type ha hq, Idf.hd1 ha⟩ hb
  · rintro _ ⟨_, _, rfl, rfl, _, _, rfl, rfl, v, _, rfl, ⟨⟨V, hv⟩, -⟩, _, b, rfl, rfl, q, hq⟩
    have : Hd1 ([c!"sequence"] ++ ([c!"<"] ++ (v ++ ([c!">"] ++ b)))) := hd1_word (by decide)
    refine ⟨⟨.sequence V q, ?_⟩, this.hd, this.not_any⟩
    unfold nonAnyType angles
    simp only [seq_assoc]
    exact seq_mk rfl (seq_mk rfl (seq_mk hv (seq_mk rfl hq)))
  · rintro _ ⟨_, b, rfl, rfl, hb⟩
    exact (nullable_builtin .object (by decide)).dist hb
  · rintro _ ⟨_, b, rfl, rfl, hb⟩
    exact (nullable_builtin .symbol (by decide)).dist hb
  · rintro _ ⟨a, b, rfl, ha, hb⟩
    exact NullableL.dist ha.1 hb
  · rintro _ ⟨_, _, rfl, rfl, _, _, rfl, rfl, v, _, rfl, ⟨⟨V, hv⟩, -⟩, _, b, rfl, rfl, q, hq⟩
    have : Hd1 ([c!"FrozenArray"] ++ ([c!"<"] ++ (v ++ ([c!">"] ++ b)))) := hd1_word (by decide)
    refine ⟨⟨.frozenArray V q, ?_⟩, this.hd, this.not_any⟩
    unfold nonAnyType angles
    simp only [seq_assoc]
    exact seq_mk rfl (seq_mk rfl (seq_mk hv (seq_mk rfl hq)))
  · rintro _ ⟨a, b, rfl, ha, hb⟩
    exact NullableL.dist ha.1 hb
  · rintro _ rfl
    exact ⟨⟨.identifier c!"undefined" false, seq_end (word_typeName (word_of (by decide)) (by decide)) rfl⟩,
      ⟨_, _, rfl, by decide, fun _ => rfl⟩, by decide⟩

theorem closed_PromiseType : Closed .PromiseType := by
  refine alt ?_ done
  rintro _ ⟨_, _, rfl, rfl, _, _, rfl, rfl, v, _, rfl, ⟨⟨R, hv⟩, -⟩, rfl⟩
  have : Hd1 ([c!"Promise"] ++ ([c!"<"] ++ (v ++ [c!">"]))) := hd1_word (by decide)
  have hp : nonAnyType (.promise R) ([c!"Promise"] ++ ([c!"<"] ++ (v ++ [c!">"]))) :=
    seq_mk rfl (seq_mk rfl (seq_mk hv rfl))
  exact ⟨⟨⟨.single (.nonAny (.promise R)), hp, by simp⟩, this.hd⟩, ⟨_, hp⟩, hk (by decide)⟩

theorem closed_SingleType : Closed .SingleType := by
  refine alt ?_ (alt ?_ (alt ?_ done))
  · rintro _ ⟨⟨t, h1⟩, h2, h3⟩
    exact ⟨⟨.single (.nonAny t), h1, by simpa using h3⟩, h2⟩
  · rintro _ rfl
    exact ⟨⟨.single .any, rfl⟩, ⟨_, _, rfl, by decide, by decide⟩⟩
  · rintro _ h
    exact h.1

theorem closed_UnionType : Closed .UnionType := by
  refine alt ?_ done
  rintro _ ⟨_, _, rfl, rfl, a, _, rfl, ⟨A, ha⟩, _, _, rfl, rfl, b, _, rfl, ⟨B, hb⟩, c, _, rfl, ⟨xs, hc⟩, rfl⟩
  refine ⟨A :: B :: xs, ?_⟩
  show parens (sepBy _ (unionMembers _)) _
  rw [unionMembers_map]
  have := sepBy_cons (sep := tok c!"or") (b := [c!"or"]) ha rfl (hc _ _ hb)
  have h2 := seq_mk (A := tok c!"(") (a := [c!"("]) rfl (seq_mk this (B := tok c!")") (b := [c!")"]) rfl)
  simpa [parens] using h2

theorem union_hd {ms : List UnionMember} {a : List Str} (h : parens (sepBy (tok c!"or") (unionMembers ms)) a) (b : List Str) :
    Hd (a ++ b) := by
  obtain ⟨_, a, rfl, rfl, -⟩ := h
  exact (hd1_word (w := c!"(") (by decide)).hd

theorem closed_Type : Closed .Type_ := by
  refine alt ?_ (alt ?_ done)
  · rintro _ h
    exact h
  · rintro _ ⟨a, b, rfl, ⟨ms, ha⟩, q, hq⟩
    exact ⟨⟨.union ms q, seq_mk ha hq⟩, union_hd ha b⟩

theorem closed_UnionMemberType : Closed .UnionMemberType := by
  refine alt ?_ (alt ?_ done)
  · rintro _ ⟨a, b, rfl, ⟨as, ha⟩, ⟨t, hb⟩, -⟩
    exact ⟨.single as t, seq_mk ha hb⟩
  · rintro _ ⟨a, b, rfl, ⟨ms, ha⟩, q, hq⟩
    exact ⟨.union ms q, seq_mk ha hq⟩

theorem closed_ReturnType : Closed .ReturnType := by
  refine alt ?_ (alt ?_ done)
  · rintro _ ⟨⟨t, ht⟩, w, r, rfl, hw, hu⟩
    by_cases h : w = c!"undefined"
    · rw [hu h, h]
      exact ⟨⟨.undefined, rfl⟩, _, _, rfl, by decide, fun _ => rfl⟩
    · refine ⟨⟨.type t, ht, ?_⟩, w, r, rfl, hw, hu⟩
      simp
      exact fun h' => h h'.symm
  · rintro _ rfl
    exact ⟨⟨.undefined, rfl⟩, _, _, rfl, by decide, fun _ => rfl⟩

theorem closed_TypeWithExtendedAttributes : Closed .TypeWithExtendedAttributes := by
  refine alt ?_ done
  rintro _ ⟨a, b, rfl, ⟨as, ha⟩, ⟨t, hb⟩, hh⟩
  exact ⟨⟨.mk as t, seq_mk ha hb⟩, a, b, rfl, ⟨as, ha⟩, ⟨t, hb⟩, hh⟩

/-! ## Values -/

theorem closed_BooleanLiteral : Closed .BooleanLiteral := by
  refine alt ?_ (alt ?_ done)
  · rintro _ rfl
    exact ⟨true, rfl⟩
  · rintro _ rfl
    exact ⟨false, rfl⟩

theorem closed_FloatLiteral : Closed .FloatLiteral := by
  refine alt ?_ (alt ?_ (alt ?_ (alt ?_ done)))
  · rintro _ h
    exact h
  · rintro _ rfl
    exact ⟨.negInfinity, rfl⟩
  · rintro _ rfl
    exact ⟨.infinity, rfl⟩
  · rintro _ rfl
    exact ⟨.nan, rfl⟩

theorem closed_ConstValue : Closed .ConstValue := by
  refine alt ?_ (alt ?_ (alt ?_ done))
  · rintro _ ⟨b, h⟩
    exact ⟨.boolean b, h⟩
  · rintro _ ⟨b, h⟩
    exact ⟨.float b, h⟩
  · rintro _ ⟨b, h⟩
    exact ⟨.integer b, h⟩

theorem closed_DefaultValue : Closed .DefaultValue := by
  refine alt ?_ (alt ?_ (alt ?_ (alt ?_ (alt ?_ done))))
  · rintro _ ⟨v, h⟩
    cases v with
    | boolean b => exact ⟨.boolean b, h⟩
    | float b => exact ⟨.float b, h⟩
    | integer b => exact ⟨.integer b, h⟩
    | null => exact ⟨.null, h⟩
  · rintro _ ⟨v, h⟩
    exact ⟨.string v, h⟩
  · rintro _ h
    exact ⟨.emptyArray, h⟩
  · rintro _ h
    exact ⟨.emptyDictionary, h⟩
  · rintro _ h
    exact ⟨.null, h⟩

theorem closed_Default : Closed .Default := by
  refine alt ?_ (alt ?_ done)
  · rintro _ ⟨_, b, rfl, rfl, v, h⟩
    exact ⟨some v, seq_mk rfl h⟩
  · rintro _ rfl
    exact ⟨none, rfl⟩

/-! ## Names -/

theorem closed_ArgumentNameKeyword : Closed .ArgumentNameKeyword := by
  intro rhs h
  have : ∀ rhs ∈ productions .ArgumentNameKeyword, ∃ w, rhs = [.t w] ∧ isWord w = true ∧
      w ∉ [c!"long", c!"short", c!"float", c!"double"] := by
    simp only [productions]
    refine alt ?_ <| alt ?_ <| alt ?_ <| alt ?_ <| alt ?_ <| alt ?_ <| alt ?_ <| alt ?_ <| alt ?_ <| alt ?_ <| alt ?_ <|
      alt ?_ <| alt ?_ <| alt ?_ <| alt ?_ <| alt ?_ <| alt ?_ <| alt ?_ <| alt ?_ <| alt ?_ <| alt ?_ <| alt ?_ <|
      alt ?_ <| alt ?_ <| alt ?_ done <;> exact ⟨_, rfl, by decide, by decide⟩
  obtain ⟨w, rfl, h1, h2⟩ := this rhs h
  rintro _ rfl
  exact nm_word (word_of h1) h2

theorem closed_AttributeNameKeyword : Closed .AttributeNameKeyword := by
  refine alt ?_ (alt ?_ done) <;> rintro _ rfl <;> exact nm_word (word_of (by decide)) (by decide)

theorem closed_OperationNameKeyword : Closed .OperationNameKeyword := by
  refine alt ?_ done
  rintro _ rfl
  exact nm_word (word_of (by decide)) (by decide)

theorem closed_ArgumentName : Closed .ArgumentName := by
  refine alt ?_ (alt ?_ done)
  · exact fun _ h => h
  · exact fun _ h => Idf.nm h

theorem closed_AttributeName : Closed .AttributeName := by
  refine alt ?_ (alt ?_ done)
  · exact fun _ h => h
  · exact fun _ h => Idf.nm h

theorem closed_OperationName : Closed .OperationName := by
  refine alt ?_ (alt ?_ done)
  · exact fun _ h => h
  · exact fun _ h => Idf.nm h

/-! ## Arguments and extended attributes -/

theorem closed_Ellipsis : Closed .Ellipsis := by
  refine alt ?_ (alt ?_ done)
  · rintro _ rfl
    exact ⟨true, rfl⟩
  · rintro _ rfl
    exact ⟨false, rfl⟩

theorem namedAttributed_mk {t : AttributedType} {i : Str} {a b : List Str} (ha : attributedType t a) (hb : name i b)
    (h : ∀ a, a ++ b ∉ twoWordTypes) : namedAttributed t i (a ++ b) := by
  obtain ⟨as, t⟩ := t
  obtain ⟨a, c, rfl, ha, hc⟩ := ha
  rw [List.append_assoc]
  exact seq_mk ha (named_mk hc hb h)

theorem closed_ArgumentRest : Closed .ArgumentRest := by
  refine alt ?_ (alt ?_ done)
  · rintro _ ⟨_, _, rfl, rfl, a, _, rfl, ⟨⟨t, ha⟩, -⟩, i, d, rfl, ⟨I, hi, hn⟩, D, hd⟩ as l0 has
    refine ⟨.single as true t I D, seq_mk has (seq_mk rfl ?_)⟩
    rw [← List.append_assoc]
    exact seq_mk (namedAttributed_mk ha hi hn) hd
  · rintro _ ⟨a, _, rfl, ⟨⟨t, ha⟩, hh⟩, e, i, rfl, ⟨E, he⟩, I, hi, hn⟩ as l0 has
    cases E with
    | true =>
      obtain rfl := he
      exact ⟨.variadic as t I, seq_mk has (seq_mk ha (seq_mk rfl hi))⟩
    | false =>
      obtain rfl := he
      refine ⟨.single as false (.mk none t) I none, seq_mk has ⟨rfl, (hh.hd0 _).avoid ?_ _ ?_⟩⟩
      · exact seq_nil rfl (named_mk ha hi hn)
      · cases as <;> simp only [Option.isSome, if_true, Bool.false_eq_true, if_false] <;> decide

theorem closed_Argument : Closed .Argument := by
  refine alt ?_ done
  rintro _ ⟨a, b, rfl, ⟨as, ha⟩, hb⟩
  exact hb as a ha

theorem closed_ExtendedAttributeNoArgs : Closed .ExtendedAttributeNoArgs := by
  refine alt ?_ done
  rintro _ h
  obtain ⟨i, h⟩ := Idf.name h
  exact ⟨.noArgs i, h⟩

theorem closed_ExtendedAttributeArgList : Closed .ExtendedAttributeArgList := by
  refine alt ?_ done
  rintro _ ⟨i, _, rfl, hi, _, _, rfl, rfl, a, _, rfl, ⟨as, ha⟩, rfl⟩
  obtain ⟨I, hi⟩ := Idf.name hi
  exact ⟨.argList I as, seq_mk hi (seq_mk rfl (seq_mk ha rfl))⟩

theorem closed_ExtendedAttributeIdent : Closed .ExtendedAttributeIdent := by
  refine alt ?_ done
  rintro _ ⟨i, _, rfl, hi, _, _, rfl, rfl, hj⟩
  obtain ⟨I, hi⟩ := Idf.name hi
  obtain ⟨J, hj⟩ := Idf.name hj
  exact ⟨.ident I (.identifier J), seq_mk hi (seq_mk rfl hj)⟩

theorem closed_ExtendedAttributeString : Closed .ExtendedAttributeString := by
  refine alt ?_ done
  rintro _ ⟨i, _, rfl, hi, _, _, rfl, rfl, J, hj⟩
  obtain ⟨I, hi⟩ := Idf.name hi
  exact ⟨.ident I (.string J), seq_mk hi (seq_mk rfl hj)⟩

theorem closed_ExtendedAttributeWildcard : Closed .ExtendedAttributeWildcard := by
  refine alt ?_ done
  rintro _ ⟨i, _, rfl, hi, _, _, rfl, rfl, rfl⟩
  obtain ⟨I, hi⟩ := Idf.name hi
  exact ⟨.wildcard I, seq_mk hi (seq_mk rfl rfl)⟩

theorem closed_ExtendedAttributeIdentList : Closed .ExtendedAttributeIdentList := by
  refine alt ?_ done
  rintro _ ⟨i, _, rfl, hi, _, _, rfl, rfl, _, _, rfl, rfl, a, _, rfl, ⟨as, ha⟩, rfl⟩
  obtain ⟨I, hi⟩ := Idf.name hi
  exact ⟨.identList I as, seq_mk hi (seq_mk rfl (seq_mk rfl (seq_mk ha rfl)))⟩

theorem closed_ExtendedAttributeNamedArgList : Closed .ExtendedAttributeNamedArgList := by
  refine alt ?_ done
  rintro _ ⟨i, _, rfl, hi, _, _, rfl, rfl, j, _, rfl, hj, _, _, rfl, rfl, a, _, rfl, ⟨as, ha⟩, rfl⟩
  obtain ⟨I, hi⟩ := Idf.name hi
  obtain ⟨J, hj⟩ := Idf.name hj
  exact ⟨.namedArgList I J as, seq_mk hi (seq_mk rfl (seq_mk hj (seq_mk rfl (seq_mk ha rfl))))⟩

theorem closed_ExtendedAttribute : Closed .ExtendedAttribute := by
  refine alt ?_ (alt ?_ (alt ?_ (alt ?_ (alt ?_ (alt ?_ (alt ?_ done)))))) <;> exact fun _ h => h

end Verif.WebIDL
