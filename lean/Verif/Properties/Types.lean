import Verif.Proof.Integer
import Verif.Proof.Map
import Verif.Properties.Results

/-!
# C28, C31: integer types and unions
-/

namespace Verif.Properties
open Nom Spec

/-! ## C28: integer types are read greedily -/

theorem begins_one {w s r : Str} (h : Begins [w] s r) (hs : NoTrivia s) : ∃ e, s = w ++ e ∧ Apart w e := by
  obtain ⟨t, b, rfl, h1, h2⟩ := h
  obtain rfl := hs _ _ rfl h1
  cases h2 with
  | cons h3 h4 h5 => exact ⟨_, rfl, h5⟩

theorem query_exists (r : Str) : ∃ q e, Query r q e := by
  by_cases h : ∃ e, Begins [c!"?"] r e
  · obtain ⟨e, t, b, rfl, ht, h⟩ := h
    cases h with
    | cons ht' hs ha =>
      cases hs with
      | nil =>
        refine ⟨true, strip e, .yes ?_ ?_⟩
        · obtain ⟨t2, h1, h2, -⟩ := skips_strip e
          refine ⟨t, _, rfl, ht, ?_⟩
          rename_i t1
          have : c!"?" ++ (t1 ++ e) = c!"?" ++ ((t1 ++ t2) ++ strip e) := by
            rw [List.append_assoc, ← h1]
          rw [this]
          refine .cons (ht'.append h2) .nil ?_
          rintro c d hc - hn
          simp at hc
          subst hc
          exact absurd hn (by decide)
        · obtain ⟨_, -, -, h⟩ := skips_strip e
          exact h
  · exact ⟨false, r, .no fun e he => h ⟨e, he⟩⟩

/-- The text `s` begins with the integer type `t`: read as a type, a return type, a record or union
member or a constant type, it is `t`, nullable if a `?` follows. -/
def IsInteger (t : IntegerType) (s r : Str) : Prop :=
  G.integerType.parse s = .ok r t ∧
  ∃ q e, Query r q e ∧ G.nonAnyType.parse s = .ok e (.integer t q) ∧
    G.type.parse s = .ok e (.single (.nonAny (.integer t q))) ∧
    G.returnType.parse s = .ok e (.type (.single (.nonAny (.integer t q)))) ∧
    G.constType.parse s = .ok e (.integer t q)

theorem isInteger {t : IntegerType} {s r : Str} (h : Begins (integerWords t) s r) (hr : NoTrivia r) (he : IntEnds t r) :
    IsInteger t s r := by
  obtain ⟨q, e, hq⟩ := query_exists r
  exact ⟨integer_ok h hr he, q, e, hq, nonAny_integer h hr he hq, type_integer h hr he hq,
    returnType_integer h hr he hq, constType_integer h hr he hq⟩

/-- `long long` is one type, whatever comes next and whatever trivia there is; `unsigned` belongs to it. -/
theorem C28_long_long (unsigned : Bool) (s r : Str)
    (h : Begins ((if unsigned then [c!"unsigned"] else []) ++ [c!"long", c!"long"]) s r) (hr : NoTrivia r) :
    IsInteger (.longLong unsigned) s r := isInteger h hr fun _ h => nomatch h

example : IsInteger (.longLong true) c!" unsigned /* x */ long\nlong ? long;" c!"? long;" :=
  C28_long_long true _ _ (begins_sound (by decide +kernel)) (noTrivia_iff.2 rfl)

/-- `long` that is not followed by `long`. -/
theorem C28_long (unsigned : Bool) (s r : Str)
    (h : Begins ((if unsigned then [c!"unsigned"] else []) ++ [c!"long"]) s r) (hr : NoTrivia r)
    (hn : ∀ r', ¬ Begins [c!"long"] r r') : IsInteger (.long unsigned) s r := isInteger h hr fun _ _ => hn

example : IsInteger (.long true) c!"unsigned long longer;" c!"longer;" :=
  C28_long true _ _ (begins_sound (by decide +kernel)) (noTrivia_iff.2 rfl) fun r' h => by
    obtain ⟨e, h1, h2⟩ := begins_one h (noTrivia_iff.2 rfl)
    obtain rfl : e = c!"er;" := by simpa using h1.symm
    exact h2 'g' 'e' rfl rfl (by decide) (by decide)

theorem C28_short (unsigned : Bool) (s r : Str)
    (h : Begins ((if unsigned then [c!"unsigned"] else []) ++ [c!"short"]) s r) (hr : NoTrivia r) :
    IsInteger (.short unsigned) s r := isInteger h hr fun _ h => nomatch h

/-- A `short`, or a `long` with something else after it. -/
example : IsInteger (.longLong true) c!" unsigned /* x */ long\nlong ? long;" c!"? long;" ∧
    IsInteger (.long true) c!"unsigned long longer;" c!"longer;" ∧
    IsInteger (.short false) c!"short long;" c!"long;" :=
  ⟨C28_long_long true _ _ (begins_sound (by decide +kernel)) (noTrivia_iff.2 rfl),
   C28_long true _ _ (begins_sound (by decide +kernel)) (noTrivia_iff.2 rfl) fun r' h => by
    obtain ⟨e, h1, h2⟩ := begins_one h (noTrivia_iff.2 rfl)
    obtain rfl : e = c!"er;" := by simpa using h1.symm
    exact h2 'g' 'e' rfl rfl (by decide) (by decide),
   C28_short false _ _ (begins_sound (by decide +kernel)) (noTrivia_iff.2 rfl)⟩

/-! ## C31: unions -/

/-- `(`, any number of members with `or` between them, `)`, optional `?`: always a type. -/
theorem C31_union (ms : List UnionMember) (s r : Str)
    (h : Spells (fun ms => parens (sepBy (tok c!"or") (unionMembers ms))) ms s r) (hr : NoTrivia r) (q : Bool) (e : Str)
    (hq : Query r q e) : G.type.parse s = .ok e (.union ms q) := by
  obtain ⟨t, ls, b, rfl, h1, h2, h3⟩ := h
  have hls : ls ≠ [] := by
    obtain ⟨a, b, rfl, rfl, -⟩ := h2
    simp
  have hg : Good ls := (tidy_type (.union ms false)).allGood ls (by
    simp only [type]; exact ⟨ls, [], by simp, h2, rfl⟩)
  have hr := spelled_reads h1 h3 hls hg (strip_of_noTrivia hr)
  obtain ⟨m1, h3, m2, h4, h5⟩ := rl_parens.1 (hr.rl h2)
  have : Ok charLeaf G.type (t ++ b) e (.union ms q) :=
    .next (.variant (dull_punct exact_char (p := .openParen) h3).singleType) <|
      .here (query_ok (okParens exact_char h3 (okSepList exact_char (guarded_call _) (guarded_kw _)
        (ok_unionMembers exact_char ms h4 h5) (koKw exact_char (solid_punct (p := .closeParen) (by decide) (by decide)) h5
          (by decide)) (koCall exact_char (dead_punct exact_char (p := .closeParen) h5).unionMember)) h5) hq)
  exact this

/-- A union without members. -/
theorem C31_empty (s r : Str) (h : Begins [c!"(", c!")"] s r) (hr : NoTrivia r) (q : Bool) (e : Str)
    (hq : Query r q e) : G.type.parse s = .ok e (.union [] q) := by
  obtain ⟨t, b, h1, h2, h3⟩ := h
  refine C31_union [] s r ⟨t, _, b, h1, h2, ?_, h3⟩ hr q e hq
  exact ⟨[c!"("], [c!")"], rfl, rfl, [], _, rfl, by simp [unionMembers, sepBy, eps], rfl⟩

/-- A union with one member. -/
theorem C31_single (m : UnionMember) (s r : Str) (h : Spells (fun m => parens (unionMember m)) m s r) (hr : NoTrivia r)
    (q : Bool) (e : Str) (hq : Query r q e) : G.type.parse s = .ok e (.union [m] q) := by
  refine C31_union [m] s r ?_ hr q e hq
  simpa only [Spells, unionMembers, sepBy] using h

theorem sepBy_mono {sep A B : Lang} (hab : ∀ ls, A ls → B ls) (r : List Lang) : ∀ (l : List Lang) (ls : List Str),
    sepBy sep (l ++ [A] ++ r) ls → sepBy sep (l ++ [B] ++ r) ls
  | [], ls, h => by
    cases r with
    | nil => exact hab ls h
    | cons C r =>
      obtain ⟨a, b, h1, h2, h3⟩ := h
      exact ⟨a, b, h1, hab a h2, h3⟩
  | [C], ls, h => by
    obtain ⟨a, b, h1, h2, c, d, h3, h4, h5⟩ := h
    exact ⟨a, b, h1, h2, c, d, h3, h4, sepBy_mono hab r [] d h5⟩
  | C :: D :: l, ls, h => by
    obtain ⟨a, b, h1, h2, c, d, h3, h4, h5⟩ := h
    exact ⟨a, b, h1, h2, c, d, h3, h4, sepBy_mono hab r (D :: l) d h5⟩

/-- A member `any` of a union, among any others, is read as a type called `any`. -/
theorem C31_any (ms ms' : List UnionMember) (s r : Str)
    (h : Spells (fun _ => parens (sepBy (tok c!"or") (unionMembers ms ++ [tok c!"any"] ++ unionMembers ms'))) () s r)
    (hr : NoTrivia r) (q : Bool) (e : Str) (hq : Query r q e) :
    G.type.parse s = .ok e (.union (ms ++ [.single none (.identifier c!"any" false)] ++ ms') q) := by
  refine C31_union _ s r ?_ hr q e hq
  obtain ⟨t, ls, b, h1, h2, ⟨x, y, rfl, h3, z, w, rfl, h4, h5⟩, h6⟩ := h
  refine ⟨t, _, b, h1, h2, ⟨x, _, rfl, h3, z, _, rfl, ?_, h5⟩, h6⟩
  have hm : ∀ ms, unionMembers ms = ms.map unionMember := by
    intro ms; induction ms <;> simp_all [unionMembers]
  simp only [hm, List.map_append, List.map_cons, List.map_nil] at h4 ⊢
  refine sepBy_mono ?_ _ _ _ h4
  intro ls hl
  simp only [unionMember, attributes, nonAnyType]
  exact ⟨[], ls, rfl, rfl, ls, [], by simp, ⟨word_iff.2 ⟨'a', _, rfl, by decide, by decide⟩, .inl ⟨hl, by decide⟩⟩, rfl⟩

/-- Whatever types are replaced by whatever well-formed type in an AST that `weedle::parse` can return, the result is
again one that it can return. -/
theorem C31_replace (s : Str) (ds : List Definition) (h : weedleParse s = .ok ds) (p : Ty → Bool) (u : Ty) (hu : WfType u) :
    weedleParse (print (mapTypes (fun t => if p t then u else t) ds)) = .ok (mapTypes (fun t => if p t then u else t) ds) := by
  refine C21_round_trip _ (map_wf (fun t ht => ?_) (fun _ h => h) ((C21_wellformed ds).2 ⟨s, h⟩))
  split <;> assumption

example : ∃ s', weedleParse s' = .ok [.typedef none (.mk none (.union [] true)) c!"a"] := by
  have h : weedleParse c!"typedef long a;" = .ok [.typedef none (.mk none (.single (.nonAny (.integer (.long false) false)))) c!"a"] := rfl
  exact ⟨_, C31_replace _ _ h (fun _ => true) (.union [] true) (by simp [WfType, WfUnionMembers])⟩

/-- In particular an empty union, a union of one member, a union with `any` can stand for any type anywhere. -/
theorem C31_anywhere (s : Str) (ds : List Definition) (h : weedleParse s = .ok ds) (p : Ty → Bool) (u : Ty)
    (hu : u ∈ [Ty.union [] false, .union [.single none (.integer (.long false) false)] false,
      .union [.single none (.identifier c!"any" false), .single none (.identifier c!"A" false)] false]) :
    ∃ s', weedleParse s' = .ok (mapTypes (fun t => if p t then u else t) ds) := by
  refine ⟨_, C31_replace s ds h p u ?_⟩
  have h1 : WfName c!"any" := word_iff.2 ⟨'a', _, rfl, by decide, by decide⟩
  have h2 : WfName c!"A" := word_iff.2 ⟨'A', _, rfl, by decide, by decide⟩
  simp at hu
  rcases hu with rfl | rfl | rfl <;>
    simp [WfType, WfUnionMembers, WfUnionMember, WfAttributes, WfNonAnyType, h1, h2]

/-- `G.type.parse` on `( /**/ ) ? x`. -/
example : G.type.parse c!"( /**/ ) ? x" = .ok c!"x" (.union [] true) :=
  C31_empty _ c!"? x" (begins_sound (by decide +kernel)) (noTrivia_iff.2 rfl) true _
    (.yes (begins_sound (by decide +kernel)) (noTrivia_iff.2 rfl))

example : G.type.parse c!"(any) x" = .ok c!"x" (.union [.single none (.identifier c!"any" false)] false) := by
  obtain ⟨t, b, h1, h2, h3⟩ : Begins [c!"(", c!"any", c!")"] c!"(any) x" c!"x" := begins_sound (by decide +kernel)
  refine C31_any [] [] _ c!"x" ⟨t, _, b, h1, h2, ⟨[c!"("], _, rfl, rfl, [c!"any"], _, rfl, rfl, rfl⟩, h3⟩
    (noTrivia_iff.2 rfl) false _ (.no fun e h => ?_)
  obtain ⟨e, h, -⟩ := begins_one h (noTrivia_iff.2 rfl)
  simp at h

example : G.type.parse c!"(long?)" = .ok [] (.union [.single none (.integer (.long false) true)] false) := by
  obtain ⟨t, b, h1, h2, h3⟩ : Begins [c!"(", c!"long", c!"?", c!")"] c!"(long?)" [] := begins_sound (by decide +kernel)
  refine C31_single (.single none (.integer (.long false) true)) _ [] ⟨t, _, b, h1, h2, ?_, h3⟩
    (noTrivia_iff.2 rfl) false _ (.no fun e h => ?_)
  · refine ⟨[c!"("], _, rfl, rfl, [c!"long", c!"?"], _, rfl, ?_, rfl⟩
    simp only [unionMember, attributes, nonAnyType, integerType]
    exact ⟨[], _, rfl, rfl, [c!"long"], [c!"?"], rfl, ⟨[], _, rfl, rfl, rfl⟩, rfl⟩
  · obtain ⟨e, h, -⟩ := begins_one h (noTrivia_iff.2 rfl)
    simp at h

set_option maxRecDepth 10000 in
example : ∃ ds, weedleParse sample = .ok ds ∧ (∃ s', weedleParse s' = .ok (mapTypes (fun _ => .union [] false) ds)) ∧
    mapTypes (fun _ => .union [] false) ds ≠ ds := by
  refine ⟨_, rfl, ?_, ?_⟩
  · exact C31_anywhere sample _ rfl (fun _ => true) _ (by simp)
  · intro h
    have := congrArg print h
    revert this
    decide +kernel

end Verif.Properties
