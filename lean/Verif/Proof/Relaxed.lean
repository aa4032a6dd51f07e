import Verif.Spec.Relaxed
import Verif.Proof.WebIDLDef

/-! # Accepted documents are derived in the grammar with additional alternatives -/

namespace Verif.WebIDL
open Nom Spec Spec.WebIDL

/-! ## Languages of symbols -/

/-- One language is contained in another. -/
def Le (A B : Lang) : Prop := ∀ ls, A ls → B ls

theorem Le.trans {A B C : Lang} (h : Le A B) (h' : Le B C) : Le A C := fun _ hx => h' _ (h _ hx)

theorem Le.of {A B : Lang} {ls : List Str} (h : Le A B) (ha : A ls) : B ls := h ls ha

theorem Le.refl (A : Lang) : Le A A := fun _ h => h

theorem Le.seq {A A' B B' : Lang} (h : Le A A') (h' : Le B B') : Le (A ⨾ B) (A' ⨾ B') := by
  rintro _ ⟨a, b, rfl, ha, hb⟩
  exact ⟨a, b, rfl, h _ ha, h' _ hb⟩

/-- What a symbol derives. -/
def D (s : Symbol) : Lang := DerivesAllIn loose [s]

theorem derivesAll_append {G : Grammar} {rhs : Alt} : ∀ {ss : Alt} {a b : List Str}, DerivesAllIn G ss a →
    DerivesAllIn G rhs b → DerivesAllIn G (ss ++ rhs) (a ++ b)
  | _, _, _, .nil, hb => hb
  | _, _, _, .terminal h, hb => .terminal (derivesAll_append h hb)
  | _, _, _, .nonTerminal h hs, hb => by
    rw [List.append_assoc]
    exact .nonTerminal h (derivesAll_append hs hb)
  | _, _, _, .identifier h hs, hb => .identifier h (derivesAll_append hs hb)
  | _, _, _, .integer h hs, hb => .integer h (derivesAll_append hs hb)
  | _, _, _, .decimal h hs, hb => .decimal h (derivesAll_append hs hb)
  | _, _, _, .string h hs, hb => .string h (derivesAll_append hs hb)

theorem cat_D : ∀ {rhs : Alt} {ls : List Str}, cat (rhs.map D) ls → DerivesAllIn loose rhs ls
  | [], _, h => h ▸ .nil
  | [_], _, h => h
  | _ :: s :: ss, _, h => by
    obtain ⟨a, b, rfl, ha, hb⟩ := h
    exact derivesAll_append ha (cat_D hb)

theorem D_n {N : NonTerminal} {ls : List Str} (h : DerivesIn loose N ls) : D (.n N) ls := by
  have := DerivesAllIn.nonTerminal h .nil
  rwa [List.append_nil] at this

theorem D_inv {N : NonTerminal} {ls : List Str} (h : D (.n N) ls) : DerivesIn loose N ls := by
  cases h with
  | nonTerminal h hs =>
    cases hs
    rwa [List.append_nil]

/-- An alternative of the standard. -/
theorem std {N : NonTerminal} (rhs : Alt) (h : rhs ∈ productions N := by decide) : Le (cat (rhs.map D)) (D (.n N)) :=
  fun _ hl => D_n (.mk (List.mem_append_left _ h) (cat_D hl))

/-- An additional alternative. -/
theorem ext {N : NonTerminal} (rhs : Alt) (h : (N, rhs) ∈ extra := by decide) : Le (cat (rhs.map D)) (D (.n N)) :=
  fun _ hl => D_n (.mk (List.mem_append_right _ (List.mem_map.2 ⟨(N, rhs), List.mem_filter.2 ⟨h, by simp⟩, rfl⟩))
    (cat_D hl))

theorem tok_le (w : Str) : Le (tok w) (D (.t w)) := fun _ h => h ▸ .terminal .nil

theorem eps_le {N : NonTerminal} (h : [] ∈ productions N := by decide) : Le eps (D (.n N)) :=
  Le.trans (B := cat []) (fun _ h => h) (std [] h)

theorem name_le (i : Str) : Le (name i) (D .identifier) := by
  rintro _ ⟨h, rfl | rfl⟩
  · exact .identifier (identifier_name.2 ⟨i, h, .inl rfl⟩) .nil
  · exact .identifier (identifier_name.2 ⟨i, h, .inr rfl⟩) .nil

theorem typeName_le (ws : List Str) (i : Str) : Le (typeName ws i) (D .identifier) := by
  rintro ls ⟨h, ⟨rfl, -⟩ | rfl⟩
  · exact name_le i _ ⟨h, .inl rfl⟩
  · exact name_le i _ ⟨h, .inr rfl⟩

theorem word_le {w : Str} (h : Regex.word.Matches w) : Le (tok w) (D .identifier) :=
  fun _ h' => name_le w _ ⟨h, .inl h'⟩

theorem string_le (v : Str) : Le (string v) (D .string) := by
  rintro _ h
  have := h.2
  subst this
  exact .string (string_item.2 ⟨v, h⟩) .nil

theorem avoiding_le (ps : List (List Str)) (A : Lang) : Le (avoiding ps A) A := fun _ h => h.1

theorem named_le (T : Lang) (i : Str) : Le (named T i) (T ⨾ D .identifier) := by
  rintro _ ⟨a, b, rfl, ha, hb, -⟩
  exact ⟨a, b, rfl, ha, name_le i _ hb⟩

theorem sepBy_le {sep : Str} {X Xs : NonTerminal} (h1 : [.t sep, .n X, .n Xs] ∈ productions Xs) (h2 : [] ∈ productions Xs) :
    ∀ (A : Lang) (As : List Lang), (∀ B ∈ A :: As, Le B (D (.n X))) →
      Le (sepBy (tok sep) (A :: As)) (D (.n X) ⨾ D (.n Xs))
  | A, [], h => fun ls hl => ⟨ls, [], by simp, h A (by simp) _ hl, eps_le h2 _ rfl⟩
  | A, B :: As, h => (Le.seq (h A (by simp)) (Le.seq (tok_le sep)
      (sepBy_le h1 h2 B As fun C hC => h C (List.mem_cons_of_mem _ hC)))).trans (Le.seq (Le.refl _) (std _ h1))

theorem concat_le {X Xs : NonTerminal} {A : Lang} (h1 : Le (A ⨾ D (.n Xs)) (D (.n Xs))) (h2 : [] ∈ productions Xs) :
    ∀ As : List Lang, (∀ B ∈ As, Le B A) → Le (concat As) (D (.n Xs))
  | [], _ => eps_le h2
  | _ :: As, h => (Le.seq (h _ (by simp)) (concat_le (X := X) h1 h2 As fun C hC => h C (List.mem_cons_of_mem _ hC))).trans h1

/-! ## Literals -/

theorem matches_hex {w : Str} (h : Regex.hex.Matches w) : Integral w := by
  obtain ⟨g, _, rfl, hg, h⟩ := Regex.matches_seq.1 h
  obtain ⟨z, _, rfl, hz, h⟩ := Regex.matches_seq.1 h
  obtain ⟨x, d, rfl, hx, hd⟩ := Regex.matches_seq.1 h
  cases hd with
  | starNil =>
    refine .inr ?_
    obtain rfl := Regex.matches_chr.1 hz
    rcases sign_matches.1 hg with rfl | rfl <;> rcases Regex.matches_alt.1 hx with hx | hx <;>
      obtain rfl := Regex.matches_chr.1 hx <;> decide
  | starCons h1 h2 => exact .inl (.seq hg (.right (.left (.seq hz (.seq hx (.seq h1 h2))))))

theorem integerLit_le (i : IntegerLit) : Le (integerLit i) (D .integer) := by
  intro ls h
  cases i with
  | dec v =>
    obtain ⟨h, rfl⟩ := h
    obtain ⟨g, v, rfl, hg, hv⟩ := Regex.matches_seq.1 h
    exact .integer (.inl (.seq hg (.left hv))) .nil
  | hex v =>
    obtain ⟨h, rfl⟩ := h
    exact .integer (matches_hex h) .nil
  | oct v =>
    obtain ⟨h, rfl⟩ := h
    obtain ⟨g, v, rfl, hg, hv⟩ := Regex.matches_seq.1 h
    exact .integer (.inl (.seq hg (.right (.right hv)))) .nil

theorem floatLit_le (f : FloatLit) : Le (floatLit f) (D (.n .FloatLiteral)) := by
  cases f with
  | value v =>
    refine Le.trans ?_ (std [.decimal])
    rintro _ ⟨h, rfl⟩
    exact .decimal h .nil
  | negInfinity => exact (tok_le _).trans (std [.t c!"-Infinity"])
  | infinity => exact (tok_le _).trans (std [.t c!"Infinity"])
  | nan => exact (tok_le _).trans (std [.t c!"NaN"])

theorem booleanLit_le (b : Bool) : Le (booleanLit b) (D (.n .BooleanLiteral)) := by
  cases b with
  | true => exact (tok_le _).trans (std [.t c!"true"])
  | false => exact (tok_le _).trans (std [.t c!"false"])

theorem constValue_le (v : ConstValue) : Le (constValue v) (D (.n .ConstValue)) := by
  cases v with
  | boolean b => exact (booleanLit_le b).trans (std [.n .BooleanLiteral])
  | float f => exact (floatLit_le f).trans (std [.n .FloatLiteral])
  | integer i => exact (integerLit_le i).trans (std [.integer])
  | null => exact (tok_le _).trans (ext [.t c!"null"])

theorem defaultValue_le (v : DefaultValue) : Le (defaultValue v) (D (.n .DefaultValue)) := by
  cases v with
  | boolean b => exact (constValue_le (.boolean b)).trans (std [.n .ConstValue])
  | emptyArray => exact (Le.seq (tok_le _) (tok_le _)).trans (std [.t c!"[", .t c!"]"])
  | emptyDictionary => exact (Le.seq (tok_le _) (tok_le _)).trans (std [.t c!"{", .t c!"}"])
  | float f => exact (constValue_le (.float f)).trans (std [.n .ConstValue])
  | integer i => exact (constValue_le (.integer i)).trans (std [.n .ConstValue])
  | null => exact (tok_le _).trans (std [.t c!"null"])
  | string v => exact (string_le v).trans (std [.string])

theorem default_le (d : Option DefaultValue) : Le (Spec.default d) (D (.n .Default)) := by
  cases d with
  | none => exact eps_le
  | some v => exact (Le.seq (tok_le _) (defaultValue_le v)).trans (std [.t c!"=", .n .DefaultValue])

/-! ## Types -/

theorem null_le (q : Bool) : Le (optTok q c!"?") (D (.n .Null)) := by
  cases q with
  | false => exact eps_le
  | true => exact (tok_le _).trans (std [.t c!"?"])

theorem seq_eps_le (A : Lang) : Le (A ⨾ eps) A := by
  rintro _ ⟨a, b, rfl, ha, hb⟩
  have hb : b = [] := hb
  subst hb
  simpa using ha

theorem eps_seq_le (A : Lang) : Le (eps ⨾ A) A := by
  rintro _ ⟨a, b, rfl, ha, hb⟩
  have ha : a = [] := ha
  subst ha
  exact hb

theorem le_seq_eps (A : Lang) : Le A (A ⨾ eps) := fun ls h => ⟨ls, [], by simp, h, rfl⟩

theorem integerType_le (t : IntegerType) : Le (integerType t) (D (.n .PrimitiveType)) := by
  refine Le.trans (B := D (.n .UnsignedIntegerType)) ?_ (std [.n .UnsignedIntegerType])
  have key : ∀ (u : Bool) (A : Lang), Le A (D (.n .IntegerType)) →
      Le (optTok u c!"unsigned" ⨾ A) (D (.n .UnsignedIntegerType)) := by
    intro u A h
    cases u with
    | false => exact ((eps_seq_le A).trans h).trans (std [.n .IntegerType])
    | true => exact (Le.seq (tok_le _) h).trans (std [.t c!"unsigned", .n .IntegerType])
  cases t with
  | longLong u => exact key u _ ((Le.seq (tok_le _) ((tok_le _).trans (std (N := .OptionalLong) [.t c!"long"]))).trans
      (std [.t c!"long", .n .OptionalLong]))
  | long u => exact key u _ (((tok_le _).trans (le_seq_eps _)).trans
      ((Le.seq (Le.refl _) (eps_le (N := .OptionalLong))).trans (std [.t c!"long", .n .OptionalLong])))
  | short u => exact key u _ ((tok_le _).trans (std [.t c!"short"]))

theorem floatingPointType_le (t : FloatingPointType) : Le (floatingPointType t) (D (.n .PrimitiveType)) := by
  refine Le.trans (B := D (.n .UnrestrictedFloatType)) ?_ (std [.n .UnrestrictedFloatType])
  have key : ∀ (u : Bool) (A : Lang), Le A (D (.n .FloatType)) →
      Le (optTok u c!"unrestricted" ⨾ A) (D (.n .UnrestrictedFloatType)) := by
    intro u A h
    cases u with
    | false => exact ((eps_seq_le A).trans h).trans (std [.n .FloatType])
    | true => exact (Le.seq (tok_le _) h).trans (std [.t c!"unrestricted", .n .FloatType])
  cases t with
  | float u => exact key u _ ((tok_le _).trans (std [.t c!"float"]))
  | double u => exact key u _ ((tok_le _).trans (std [.t c!"double"]))

theorem nullable_le {A B : Lang} (h : Le A B) (q : Bool) : Le (A ⨾ optTok q c!"?") (B ⨾ D (.n .Null)) := Le.seq h (null_le q)

/-- A type other than `any` and strings. -/
def Key : Lang := fun ls => ∃ K ∈ keyTypes, cat (K.map D) ls

/-- A type other than `any`. -/
def NonAny : Lang := fun ls => (D (.n .StringType) ⨾ D (.n .Null)) ls ∧
  (∃ w ∈ [c!"ByteString", c!"DOMString", c!"USVString"], [w] <+: ls) ∨ Key ls

theorem key (K : Alt) (h : K ∈ keyTypes := by decide) : Le (cat (K.map D)) NonAny := fun _ hl => .inr ⟨K, h, hl⟩

theorem dist_primitive {A : Lang} (h : Le A (D (.n .PrimitiveType))) (q : Bool) :
    Le (A ⨾ optTok q c!"?") NonAny :=
  (nullable_le h q).trans (key [.n .PrimitiveType, .n .Null])

theorem dist_string {w : Str} (hw : w ∈ [c!"ByteString", c!"DOMString", c!"USVString"]) (q : Bool)
    (h : Le (tok w) (D (.n .StringType))) : Le (tok w ⨾ optTok q c!"?") NonAny := by
  rintro _ ⟨a, b, rfl, ha, hb⟩
  refine .inl ⟨⟨a, b, rfl, h _ ha, null_le q _ hb⟩, w, hw, b, ?_⟩
  have ha : a = [w] := ha
  rw [ha]

theorem dist_buffer {A : Lang} (h : Le A (D (.n .BufferRelatedType))) (q : Bool) :
    Le (A ⨾ optTok q c!"?") NonAny :=
  (nullable_le h q).trans (key [.n .BufferRelatedType, .n .Null])

theorem dist_identifier {A : Lang} (h : Le A (D .identifier)) (q : Bool) :
    Le (A ⨾ optTok q c!"?") NonAny :=
  (nullable_le h q).trans (key [.identifier, .n .Null])

theorem builtin_le (b : Builtin) (q : Bool) : Le (tok (builtinWord b) ⨾ optTok q c!"?") NonAny := by
  cases b with
  | boolean => exact dist_primitive ((tok_le _).trans (std [.t c!"boolean"])) q
  | byte => exact dist_primitive ((tok_le _).trans (std [.t c!"byte"])) q
  | octet => exact dist_primitive ((tok_le _).trans (std [.t c!"octet"])) q
  | byteString => exact dist_string (by decide) q ((tok_le _).trans (std [.t c!"ByteString"]))
  | domString => exact dist_string (by decide) q ((tok_le _).trans (std [.t c!"DOMString"]))
  | usvString => exact dist_string (by decide) q ((tok_le _).trans (std [.t c!"USVString"]))
  | object => exact (nullable_le (tok_le _) q).trans (key [.t c!"object", .n .Null])
  | symbol => exact (nullable_le (tok_le _) q).trans (key [.t c!"symbol", .n .Null])
  | error => exact dist_identifier (word_le (word_of (by decide))) q
  | arrayBuffer => exact dist_buffer ((tok_le _).trans (std [.t c!"ArrayBuffer"])) q
  | dataView => exact dist_buffer ((tok_le _).trans (std [.t c!"DataView"])) q
  | int8Array => exact dist_buffer ((tok_le _).trans (std [.t c!"Int8Array"])) q
  | int16Array => exact dist_buffer ((tok_le _).trans (std [.t c!"Int16Array"])) q
  | int32Array => exact dist_buffer ((tok_le _).trans (std [.t c!"Int32Array"])) q
  | uint8Array => exact dist_buffer ((tok_le _).trans (std [.t c!"Uint8Array"])) q
  | uint16Array => exact dist_buffer ((tok_le _).trans (std [.t c!"Uint16Array"])) q
  | uint32Array => exact dist_buffer ((tok_le _).trans (std [.t c!"Uint32Array"])) q
  | uint8ClampedArray => exact dist_buffer ((tok_le _).trans (std [.t c!"Uint8ClampedArray"])) q
  | float32Array => exact dist_buffer ((tok_le _).trans (std [.t c!"Float32Array"])) q
  | float64Array => exact dist_buffer ((tok_le _).trans (std [.t c!"Float64Array"])) q
  | arrayBufferView => exact dist_identifier (word_le (word_of (by decide))) q
  | bufferSource => exact dist_identifier (word_le (word_of (by decide))) q

end Verif.WebIDL
