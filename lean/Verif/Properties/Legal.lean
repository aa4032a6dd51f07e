import Verif.Source.Legal
import Verif.Source.ExactTypes
import Verif.Properties.Traced
import Verif.Properties.Parts
import Verif.Properties.Results
import Verif.Proof.Integer

/-!
# C81: which values are results

`Legal u` (`Verif/Source/Legal.lean`): ten conditions, each on values of one type. `Part u v` (`Verif/Source/Traced.lean`): `u` occurs in `v`.
-/

namespace Verif.Properties
open Nom Source Spec

private theorem returns_unique {T : RTy} {s : Str} {x y : Res Char Val} (h : ExpandedReturns T s x) (h' : ExpandedReturns T s y) : x = y := by
  obtain ⟨is, hi, N, hN⟩ := h
  obtain ⟨is', hi', N', hN'⟩ := h'
  rw [hi] at hi'
  cases hi'
  exact (hN (max N N') (Nat.le_max_left ..)).symm.trans (hN' (max N N') (Nat.le_max_right ..))

private theorem parse_plain {U : RTy} {d : Decl} (hd : find decls U.name = some d) (hp : d.params = []) (n : Nat) (s : Str) :
    parse decls n U s = parse decls n (.path0 U.name) s := by
  have ha (ts : List RTy) : assign [] ts = assign [] [] := by funext x; rfl
  cases n with
  | zero => rfl
  | succ n =>
    simp only [parse, show (RTy.path0 U.name).name = U.name from rfl]
    rw [hd]
    cases d with
    | struct n ps fs => cases hp; simp only [Decl.parser]; rw [ha, ha (RTy.path0 _).args]
    | fn n ps m => cases hp; simp only [Decl.parser]; rw [ha, ha (RTy.path0 _).args]
    | _ => rfl

private theorem node_plain {T : RTy} (hT : WellFormed decls T) {s r : Str} {v u : Val} (h : ExpandedReturns T s (.ok r v)) (hu : Source.Part u v)
    (hn : u.isNode = true) {d : Decl} (hd : find decls u.typeName = some d) (hp : d.params = []) :
    ∃ s' r', ExpandedReturns (.path0 u.typeName) s' (.ok r' u) := by
  obtain ⟨U, s', r', -, -, -, e, is, hi, N, hN⟩ := C80_node readSource_eq hT h hu hn
  refine ⟨s', r', is, hi, N, fun n h => ?_⟩
  rw [C50_same readSource_eq hi, ← e, ← parse_plain (e ▸ hd) hp, ← C50_same readSource_eq hi]
  exact hN n h

/-- A node of a type that has no parameters is the value of what the model's parser returns somewhere. -/
private theorem node_model {T : RTy} (hT : WellFormed decls T) {s r : Str} {v u : Val} (h : ExpandedReturns T s (.ok r v)) (hu : Source.Part u v)
    (hn : u.isNode = true) {d : Decl} (hd : find decls u.typeName = some d) (hp : d.params = []) {α : Type} {g : G α} {f : α → Val}
    (hg : TypeOf (.path0 u.typeName) g f) {L : α → Lang} (hL : PartOf g L) : ∃ a ls, u = f a ∧ L a ls := by
  obtain ⟨s', r', h'⟩ := node_plain hT h hu hn hd hp
  have := returns_unique h' (C50_parser hg s')
  cases e : g.parse s' with
  | ok r a =>
    rw [e] at this
    cases this
    obtain ⟨ls, -, h2⟩ := hL.part.snd _ _ _ e
    exact ⟨a, ls, rfl, h2⟩
  | err x => rw [e] at this; cases this
  | diverge => rw [e] at this; cases this

private theorem key_name {t : NonAnyType} (h : ¬ IsStringType t) {n : Str} {v : Val} (e : Val.variant c!"NonAnyType" n v = nonAnyTypeVal t) :
    n ≠ c!"ByteString" ∧ n ≠ c!"DOMString" ∧ n ≠ c!"USVString" := by
  cases t with
  | builtin b q =>
    cases b <;> first
      | exact absurd trivial h
      | (simp only [nonAnyTypeVal, builtinName] at e; cases e; decide)
  | _ => simp only [nonAnyTypeVal] at e; cases e; decide

private theorem list_field {ds : List Decl} {n : Nat} {U : RTy} (hU : U.name = c!"PunctuatedNonEmpty") {s r : Str} {v : Val}
    (hd : find ds c!"PunctuatedNonEmpty" = find decls c!"PunctuatedNonEmpty")
    (h : parse ds n U s = .ok r v) : v.field c!"list" ≠ .list [] := by
  cases n with
  | zero => cases h
  | succ n =>
    have e : find decls c!"PunctuatedNonEmpty" = some (.struct c!"PunctuatedNonEmpty" [c!"T", c!"S"] [
      ⟨c!"list", .path1 c!"Vec" (.path0 c!"T"), .mac (.terminated (.separatedNonemptyList (.weedle (.path0 c!"S"))
        (.weedle (.path0 c!"T"))) (.opt (.weedle (.path0 c!"S"))))⟩,
      ⟨c!"separator", .path0 c!"S", .marker⟩]) := by rfl
    simp only [parse, hU, hd, e, Decl.parser, fields] at h
    obtain ⟨i, a, h1, h2⟩ := seq_inv h
    cases h2
    obtain ⟨j, b, h3, h4⟩ := seq_inv h1
    obtain ⟨k, c, h5, h6⟩ := seq_inv h4
    cases h6
    obtain ⟨as, h7, rfl⟩ := map_inv h3
    intro hl
    simp [Val.field, Env.get] at hl
    subst hl
    unfold separatedNonemptyList at h7
    split at h7
    · cases h7
    · cases h7
    · split at h7
      · cases h7
      · obtain ⟨bs, -, hb⟩ := consRes_inv h7
        cases hb

/-- Every value that occurs in a result of a parser meets the conditions. -/
theorem C81_legal {ds : List Decl} (hd : readSource = some ds) {T : RTy} (hT : WellFormed ds T) {s r : Str} {v u : Val}
    (h : ExpandedReturns T s (.ok r v)) (hu : Source.Part u v) : Legal u := by
  rw [readSource_eq] at hd
  cases hd
  constructor
  · rintro x rfl
    obtain ⟨a, ls, e, hl⟩ := node_model hT h hu rfl (d := decls.find? (·.name = c!"Identifier") |>.get rfl) rfl rfl .identifier .ident
    cases e
    exact hl.1
  · rintro x rfl
    obtain ⟨a, ls, e, hl⟩ := node_model hT h hu rfl (d := decls.find? (·.name = c!"StringLit") |>.get rfl) rfl rfl .stringLit .stringLit
    cases e
    exact hl.1
  · rintro x rfl
    obtain ⟨a, ls, e, hl⟩ := node_model hT h hu rfl (d := decls.find? (·.name = c!"DecLit") |>.get rfl) rfl rfl .decLit .decLit
    cases e
    exact hl.1
  · rintro x rfl
    obtain ⟨a, ls, e, hl⟩ := node_model hT h hu rfl (d := decls.find? (·.name = c!"HexLit") |>.get rfl) rfl rfl .hexLit .hexLit
    cases e
    exact hl.1
  · rintro x rfl
    obtain ⟨a, ls, e, hl⟩ := node_model hT h hu rfl (d := decls.find? (·.name = c!"OctLit") |>.get rfl) rfl rfl .octLit .octLit
    cases e
    exact hl.1
  · rintro x rfl
    obtain ⟨a, ls, e, hl⟩ := node_model hT h hu rfl (d := decls.find? (·.name = c!"FloatValueLit") |>.get rfl) rfl rfl .floatValueLit .floatValueLit
    cases e
    exact hl.1
  · rintro fs rfl ho
    obtain ⟨a, ls, e, hl⟩ := node_model hT h hu rfl (d := decls.find? (·.name = c!"SingleArgument") |>.get rfl) rfl rfl .singleArgument .singleArgument
    rw [e] at ho ⊢
    cases a with
    | variadic as t i => simp [argumentVal, Val.payload] at e
    | single as o t i d =>
      have := wf_argument _ ls hl.2
      simp only [WfArgument] at this
      cases o
      · have h := this.2.2.2.2 rfl
        simp [argumentVal, Val.payload, Val.field, Env.get, h.1, optVal]
      · simp [argumentVal, Val.payload, Val.field, Env.get, flagVal] at ho
  · rintro fs rfl ho ha
    obtain ⟨a, ls, e, hl⟩ := node_model hT h hu rfl (d := decls.find? (·.name = c!"SingleArgument") |>.get rfl) rfl rfl .singleArgument .singleArgument
    rw [e] at ho ha ⊢
    cases a with
    | variadic as t i => simp [argumentVal, Val.payload] at e
    | single as o t i d =>
      have := wf_argument _ ls hl.2
      simp only [WfArgument] at this
      cases o
      · have h := (this.2.2.2.2 rfl).2
        obtain ⟨bs, u⟩ := t
        cases as with
        | some as => simp [argumentVal, Val.payload, Val.field, Env.get, attrsVal] at ha
        | none =>
          have := h rfl
          simp only [hasAttributes, Option.isSome_eq_false_iff, Option.isNone_iff_eq_none] at this
          subst this
          simp [argumentVal, Val.payload, Val.field, Env.get, attributedTypeVal, attrsVal]
      · simp [argumentVal, Val.payload, Val.field, Env.get, flagVal] at ho
  · rintro n w rfl
    obtain ⟨a, ls, e, hl⟩ := node_model hT h hu rfl (d := decls.find? (·.name = c!"RecordKeyType") |>.get rfl) rfl rfl .recordKeyType .recordKeyType
    cases a with
    | nonAny t =>
      have := wf_recordKeyType _ ls hl
      simp only [WfRecordKeyType] at this
      simp only [recordKeyTypeVal, Val.variant.injEq, true_and] at e
      exact key_name this.2 e
    | _ => simp [recordKeyTypeVal] at e
  · rintro fs rfl
    obtain ⟨U, s', r', -, -, -, e, is, hi, N, hN⟩ := C80_node readSource_eq hT h hu rfl
    have := hN N (Nat.le_refl _)
    rw [C50_same readSource_eq hi] at this
    exact list_field e rfl this

example : WellFormed decls (.path0 c!"SingleArgument") ∧
    ExpandedReturns (.path0 c!"SingleArgument") c!"any _a" (.ok [] (argumentVal (.single none false (.mk none (.single .any)) c!"a" none)).payload) ∧
    Source.Part (.newtype c!"Identifier" (.str c!"a")) (argumentVal (.single none false (.mk none (.single .any)) c!"a" none)).payload :=
  ⟨⟨by decide, by decide +kernel⟩, C50_parser .singleArgument _, .struct (x := c!"identifier") (by simp [identVal]) .refl⟩

/-- The conditions reject values of the types of the crate: a default value that is not of an optional argument, an enum without values. -/
example : ¬ Legal (.struct c!"SingleArgument" [(c!"optional", .none), (c!"default", .some .unit)]) ∧
    ¬ Legal (.struct c!"PunctuatedNonEmpty" [(c!"list", .list [])]) ∧ ¬ Legal (.newtype c!"Identifier" (.str c!"a b")) ∧
    ¬ Legal (.variant c!"RecordKeyType" c!"NonAny" (.variant c!"NonAnyType" c!"DOMString" .unit)) := by
  refine ⟨fun h => ?_, fun h => h.nonempty _ rfl rfl, fun h => ?_, fun h => (h.key _ _ rfl).2.1 rfl⟩
  · have := h.default _ rfl rfl
    cases this
  · have := h.name _ rfl
    obtain ⟨c, w, e, -, h2⟩ := word_iff.1 this
    cases e
    have := h2 ' ' (by simp)
    revert this
    decide

/-- Every value that occurs in the result of `weedle::parse` meets the conditions. -/
theorem C81_document (s : Str) (ds : List Definition) (h : weedleParse s = .ok ds) {u : Val} (hu : Source.Part u (.list (ds.map definitionVal))) :
    Legal u := by
  have h' := C50_parser .definitions s
  have : ∃ r, G.definitions.parse s = .ok r ds := by
    unfold weedleParse at h
    cases e : G.definitions.parse s with
    | ok r as =>
      rw [e] at h
      cases r with
      | nil => cases h; exact ⟨_, rfl⟩
      | cons c r => cases h
    | err x => rw [e] at h; cases h
    | diverge => rw [e] at h; cases h
  obtain ⟨r, e⟩ := this
  rw [e] at h'
  exact C81_legal readSource_eq (T := .path0 c!"Definitions") ⟨by decide, by decide +kernel⟩ h' hu

/-- A value of a type without parameters is the result of a text, all of which is consumed, if and only if every value that occurs in it
meets the conditions. -/
theorem C81_exact {ds : List Decl} (hd : readSource = some ds) {is : List Item} (hi : expandSource = some is) {x : Str}
    (hx : WellFormed ds (.path0 x)) {v : Val} (hv : HasType is (.path0 x) v) :
    (∃ s, ExpandedReturns (.path0 x) s (.ok [] v)) ↔ ∀ u, Source.Part u v → Legal u := by
  rw [readSource_eq] at hd
  rw [expandSource_eq] at hi
  cases hd
  cases hi
  exact ⟨fun ⟨s, h⟩ u hu => C81_legal readSource_eq hx h hu, fun h => Exact.made_all hx v hv h⟩

/-- Both sides: the value of a text, and an enum without values. -/
private def enumDefinition (vs : List Str) : Val := .list [definitionVal (.enum none c!"A" vs)]

private theorem enumDefinition_type (vs : List Str) : HasType crateItems (.path0 c!"Definitions") (enumDefinition vs) := by
  have tok (k : Kw) : HasType crateItems (.path0 (kwType k)) (kwVal k) := .token (Exact.unit_mem (kw_unit k))
  have pun (k : Punct) : HasType crateItems (.path0 (punctType k)) (punctVal k) := .token (Exact.unit_mem (punct_unit k))
  have lit (x : Str) : HasType crateItems (.path0 c!"StringLit") (stringVal x) := .newtype Exact.mStringLit (.str x)
  have hb : Item.struct c!"Braced" [c!"T"] [(c!"open_brace", .path0 c!"OpenBrace"), (c!"body", .path0 c!"T"),
    (c!"close_brace", .path0 c!"CloseBrace")] ∈ crateItems := by decide +kernel
  have hl : Item.struct c!"PunctuatedNonEmpty" [c!"T", c!"S"] [(c!"list", .path1 c!"Vec" (.path0 c!"T")), (c!"separator", .path0 c!"S")] ∈
    crateItems := by decide +kernel
  refine .alias Exact.mDefinitions (.list ?_)
  simp only [List.mem_singleton, forall_eq]
  refine .variant Exact.mDefinition (by simp) (.struct (T := .path0 c!"EnumDefinition") Exact.mEnumDefinition rfl rfl ?_)
  simp only [List.zip_cons_cons, List.zip_nil_right, List.forall_mem_cons]
  refine ⟨.none, tok .enum, .newtype Exact.mIdentifier (.str _), ?_, pun .semiColon, by simp⟩
  refine .struct (T := .path1 c!"Braced" (.path0 c!"EnumValueList")) hb rfl rfl ?_
  simp only [List.zip_cons_cons, List.zip_nil_right, List.forall_mem_cons]
  refine ⟨pun .openBrace, .alias Exact.mEnumValueList ?_, pun .closeBrace, by simp⟩
  refine .struct (T := .path2 c!"PunctuatedNonEmpty" (.path0 c!"StringLit") (.path0 c!"Comma")) hl rfl rfl ?_
  simp only [List.zip_cons_cons, List.zip_nil_right, List.forall_mem_cons]
  refine ⟨.list fun w hw => ?_, pun .comma, by simp⟩
  obtain ⟨x, -, rfl⟩ := List.mem_map.1 hw
  exact lit x

example : (∃ s, ExpandedReturns (.path0 c!"Definitions") s (.ok [] (enumDefinition [c!"b", c!"b"]))) ∧
    ¬ ∃ s, ExpandedReturns (.path0 c!"Definitions") s (.ok [] (enumDefinition [])) := by
  refine ⟨⟨c!"enum A{\"b\",\"b\"};", C50_parser .definitions _⟩, fun h => ?_⟩
  have := (C81_exact readSource_eq expandSource_eq ⟨by decide, by decide +kernel⟩ (enumDefinition_type [])).1 h
    (punctuatedNonEmptyVal (punctVal .comma) []) (.list (v := definitionVal (.enum none c!"A" [])) (List.mem_singleton.2 rfl)
      (.variant (.struct (x := c!"values") (v := braceVal (punctuatedNonEmptyVal (punctVal .comma) [])) (.tail _ (.tail _ (.tail _ (.head _))))
        (.struct (x := c!"body") (.tail _ (.head _)) .refl))))
  exact this.nonempty _ rfl rfl

/-- A type of which documents have no values by itself: a list of arguments, without parentheses. -/
example : HasType crateItems (.path0 c!"ArgumentList") (punctuatedVal (punctVal .comma) []) ∧ WellFormed decls (.path0 c!"ArgumentList") ∧
    ∃ s, ExpandedReturns (.path0 c!"ArgumentList") s (.ok [] (punctuatedVal (punctVal .comma) [])) := by
  have hl : Item.struct c!"Punctuated" [c!"T", c!"S"] [(c!"list", .path1 c!"Vec" (.path0 c!"T")), (c!"separator", .path0 c!"S")] ∈
    crateItems := by decide +kernel
  refine ⟨.alias Exact.mArgumentList ?_, ⟨by decide, by decide +kernel⟩, [], C50_parser .argumentList _⟩
  refine .struct (T := .path2 c!"Punctuated" (.path0 c!"Argument") (.path0 c!"Comma")) hl rfl rfl ?_
  simp only [List.zip_cons_cons, List.zip_nil_right, List.forall_mem_cons]
  exact ⟨.list (fun w hw => nomatch hw), .token (Exact.unit_mem (punct_unit .comma)), by simp⟩

private theorem long_step {s m : Str} {x : IntegerType} (h : x = .long false) (e : G.integerType.parse s = .ok m x) : CStep s c!"long" m := by
  subst h
  obtain ⟨ls, h1, _, _, rfl, h2, h3⟩ := part_integerType.snd s m _ e
  cases h2
  cases h3
  exact reads_one.1 h1

private def longs : Val := .list [integerTypeVal (.long false), integerTypeVal (.long false)]

/-- With parameters it is not so: two `long` in a row are one `long long`. -/
theorem C81_parameters {is : List Item} (hi : expandSource = some is) : ∃ v, HasType is (.path1 c!"Vec" (.path0 c!"IntegerType")) v ∧
    (∀ u, Source.Part u v → Legal u) ∧ ¬ ∃ s r, ExpandedReturns (.path1 c!"Vec" (.path0 c!"IntegerType")) s (.ok r v) := by
  rw [expandSource_eq] at hi
  cases hi
  have hl : ∃ s, ExpandedReturns (.path0 c!"IntegerType") s (.ok [] (integerTypeVal (.long false))) := ⟨c!"long", C50_parser .integerType _⟩
  have ht : HasType crateItems (.path0 c!"IntegerType") (integerTypeVal (.long false)) := by
    refine .variant Exact.mIntegerType (T := .path0 c!"LongType") (by simp) (.struct (T := .path0 c!"LongType") Exact.mLongType rfl rfl ?_)
    simp only [List.zip_cons_cons, List.zip_nil_right, List.forall_mem_cons]
    exact ⟨.none, .token (Exact.unit_mem (kw_unit .long)), by simp⟩
  refine ⟨longs, .list (by simp [ht]), fun u hu => ?_, ?_⟩
  · have hw : WellFormed decls (.path0 c!"IntegerType") := ⟨by decide, by decide +kernel⟩
    have := (C81_exact readSource_eq expandSource_eq hw ht).1 hl
    cases hu with
    | refl => constructor <;> (intros; contradiction)
    | list h h' =>
      simp only [List.mem_cons, List.not_mem_nil, or_false, or_self] at h
      subst h
      exact this _ h'
  · rintro ⟨s, r, h⟩
    have := returns_unique h (C50_parser (.vec .integerType) s)
    cases e : (G.many0 G.integerType).parse s with
    | ok r' as =>
      rw [e] at this
      simp only [resMap, Res.ok.injEq, longs, Val.list.injEq] at this
      obtain ⟨rfl, h2⟩ := this
      have := (many0_ok_iff (fine_suff exact_char (g := G.integerType) (b := true) inferInstance)).1 e
      obtain ⟨a, b, rfl⟩ : ∃ a b, as = [a, b] := by
        match as, congrArg List.length h2 with
        | [a, b], _ => exact ⟨a, b, rfl⟩
      simp only [List.map_cons, List.map_nil, List.cons.injEq, and_true] at h2
      have ha := (integerType_inj _ _ h2.1).symm
      have hb := (integerType_inj _ _ h2.2).symm
      obtain ⟨hc, -⟩ := this
      cases hc with
      | cons h3 _ hc =>
        cases hc with
        | cons h4 _ hc =>
          cases hc
          have h5 : Ok charLeaf G.integerType s _ (.longLong false) := okInteger exact_char (ls := [c!"long", c!"long"])
            (Pr.eps (Pr.cons rfl)) (.cons (long_step ha h3) (.one (long_step hb h4))) (noJoin_integer (t := .longLong false) fun _ h => nomatch h)
          rw [Ok, OkAt, h3] at h5
          cases h5
          cases ha
    | err x => rw [e] at this; cases this
    | diverge => rw [e] at this; cases this

end Verif.Properties
