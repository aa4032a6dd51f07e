import Verif.Proof.LinearWord

/-! # Costs of types -/

namespace Verif.Linear
open Nom Spec

set_option synthInstance.maxSize 2000
set_option synthInstance.maxHeartbeats 400000

variable {α β : Type} {A : Str → Nat} {l : Nat} {c : Char} {w : Kw}

instance : Brief G.longLongType 3 := by unfold G.longLongType; infer_instance
instance : Brief G.longType 2 := by unfold G.longType; infer_instance
instance : Brief G.shortType 2 := by unfold G.shortType; infer_instance
instance : Brief G.integerType 7 := by unfold G.integerType; infer_instance
instance : Brief G.floatType 2 := by unfold G.floatType; infer_instance
instance : Brief G.doubleType 2 := by unfold G.doubleType; infer_instance
instance : Brief G.floatingPointType 4 := by unfold G.floatingPointType; infer_instance
instance {b : Builtin} : Brief (G.builtin b) 2 := by unfold G.builtin; infer_instance
instance : Brief G.constType 21 := by unfold G.constType; infer_instance

instance [∀ k, Leafy A (.kw k)] : Meas A G.longLongType := by unfold G.longLongType; infer_instance
instance [∀ k, Leafy A (.kw k)] : Meas A G.longType := by unfold G.longType; infer_instance
instance [∀ k, Leafy A (.kw k)] : Meas A G.shortType := by unfold G.shortType; infer_instance
instance [∀ k, Leafy A (.kw k)] : Meas A G.integerType := by unfold G.integerType; infer_instance
instance [∀ k, Leafy A (.kw k)] : Meas A G.floatType := by unfold G.floatType; infer_instance
instance [∀ k, Leafy A (.kw k)] : Meas A G.doubleType := by unfold G.doubleType; infer_instance
instance [∀ k, Leafy A (.kw k)] : Meas A G.floatingPointType := by unfold G.floatingPointType; infer_instance
instance [∀ k, Leafy A (.kw k)] [Leafy A (.punct .qMark)] {b : Builtin} : Meas A (G.builtin b) := by unfold G.builtin; infer_instance

instance : Sticky w G.longLongType := by unfold G.longLongType; infer_instance
instance : Sticky w G.longType := by unfold G.longType; infer_instance
instance : Sticky w G.shortType := by unfold G.shortType; infer_instance
instance : Sticky w G.integerType := by unfold G.integerType; infer_instance
instance : Sticky w G.floatType := by unfold G.floatType; infer_instance
instance : Sticky w G.doubleType := by unfold G.doubleType; infer_instance
instance : Sticky w G.floatingPointType := by unfold G.floatingPointType; infer_instance
instance {b : Builtin} : Sticky w (G.builtin b) := by unfold G.builtin; infer_instance

instance [Sign c] : Blunt c G.longLongType 2 := by unfold G.longLongType; infer_instance
instance [Sign c] : Blunt c G.longType 2 := by unfold G.longType; infer_instance
instance [Sign c] : Blunt c G.shortType 2 := by unfold G.shortType; infer_instance
instance [Sign c] : Blunt c G.integerType 6 := by unfold G.integerType; infer_instance
instance [Sign c] : Blunt c G.floatType 2 := by unfold G.floatType; infer_instance
instance [Sign c] : Blunt c G.doubleType 2 := by unfold G.doubleType; infer_instance
instance [Sign c] : Blunt c G.floatingPointType 4 := by unfold G.floatingPointType; infer_instance
instance [Sign c] {b : Builtin} : Blunt c (G.builtin b) 1 := by unfold G.builtin; infer_instance
instance [Sign c] : Blunt c G.promiseType 1 := by unfold G.promiseType; infer_instance
instance [Sign c] : Blunt c G.sequenceType 1 := by unfold G.sequenceType; infer_instance
instance [Sign c] : Blunt c G.frozenArrayType 1 := by unfold G.frozenArrayType; infer_instance
instance [Sign c] : Blunt c G.recordType 1 := blunt_bind (inferInstanceAs (Blunt c (G.kw .record) 1))
instance [Sign c] : Blunt c G.nonAnyType 37 := by unfold G.nonAnyType; infer_instance
instance [Sign c] : Blunt c G.singleType 38 := by unfold G.singleType; infer_instance
instance [Refuse c (.punct .openParen)] : Blunt c G.unionType 1 := by unfold G.unionType; infer_instance
instance [Sign c] [Refuse c (.punct .openParen)] : Blunt c G.type 39 := by unfold G.type; infer_instance
instance [Sign c] [Refuse c (.punct .openBracket)] : Skips c G.attrs 1 := by unfold G.attrs G.extAttrList; infer_instance

class Usual (A : Str → Nat) : Prop where
  kw : ∀ k, Leafy A (.kw k)
  ident : Leafy A .ident
  inner : ∀ p, p ≠ .semiColon → Leafy A (.punct p)
  string : Leafy A .string
  dec : Leafy A .dec
  hex : Leafy A .hex
  oct : Leafy A .oct
  float : Leafy A .float

instance : Usual ahead := ⟨fun _ => inferInstance, inferInstance, fun _ h => have := inner_punct h; inferInstance, inferInstance, inferInstance,
  inferInstance, inferInstance, inferInstance⟩
instance : Usual List.length := ⟨fun _ => inferInstance, inferInstance, fun _ _ => inferInstance, inferInstance, inferInstance, inferInstance,
  inferInstance, inferInstance⟩
instance {k : Kw} [h : Usual A] : Leafy A (.kw k) := h.kw k
instance [h : Usual A] : Leafy A .ident := h.ident
instance [h : Usual A] : Leafy A .string := h.string
instance [h : Usual A] : Leafy A .dec := h.dec
instance [h : Usual A] : Leafy A .hex := h.hex
instance [h : Usual A] : Leafy A .oct := h.oct
instance [h : Usual A] : Leafy A .float := h.float
instance [h : Usual A] : Leafy A (.punct .qMark) := h.inner _ (by decide)
instance [h : Usual A] : Leafy A (.punct .lessThan) := h.inner _ (by decide)
instance [h : Usual A] : Leafy A (.punct .greaterThan) := h.inner _ (by decide)
instance [h : Usual A] : Leafy A (.punct .comma) := h.inner _ (by decide)
instance [h : Usual A] : Leafy A (.punct .openParen) := h.inner _ (by decide)
instance [h : Usual A] : Leafy A (.punct .closeParen) := h.inner _ (by decide)
instance [h : Usual A] : Leafy A (.punct .openBracket) := h.inner _ (by decide)
instance [h : Usual A] : Leafy A (.punct .closeBracket) := h.inner _ (by decide)
instance [h : Usual A] : Leafy A (.punct .openBrace) := h.inner _ (by decide)
instance [h : Usual A] : Leafy A (.punct .closeBrace) := h.inner _ (by decide)
instance [h : Usual A] : Leafy A (.punct .assign) := h.inner _ (by decide)
instance [h : Usual A] : Leafy A (.punct .ellipsis) := h.inner _ (by decide)
instance [h : Usual A] : Leafy A (.punct .colon) := h.inner _ (by decide)
instance [h : Usual A] : Leafy A (.punct .asterisk) := h.inner _ (by decide)

section

theorem lin_of {g : G α} {st : Bool} {k : Nat} [hs : Guarded true g st] [hg : Brief g k] [hm : Meas A g] : Lin A l g [] k :=
  lin_brief hs hg hm
variable [Usual A]

instance {p : Punct} [Leafy A (.punct p)] : Lin A l (G.optPunct p) [] 1 := lin_of
instance {k : Kw} : Lin A l (G.optKw k) [] 1 := lin_of
instance {g : G α} {m w k : Nat} {st : Bool} {f : α → Bool → β} [Guarded true g st] [Tame l g m w 6] [Lin A l g [] k] :
    Lin A l (G.mayBeNull f g) [] (k + 1) := by unfold G.mayBeNull; infer_instance

omit [Usual A] in
theorem lin_last {g : G α} {X : List Char} {k : Nat} (hg : Lin A l g X k) : Lin A l (G.alts [g]) X k :=
  (lin_orElse (kf := 0) hg (lin_altEnd.weaken fun _ h => nomatch h) fun s n e m r v h1 h2 => by
      obtain ⟨-, h⟩ := Runs.inv h2
      cases h).mono (Nat.le_refl _)
omit [Usual A] in
theorem lin_cons {g : G α} {gs : List (G α)} {X : List Char} {st : Bool} {k k' : Nat} [hs : Guarded true g st] [hb : Brief g k]
    [hm : Meas A g] (hh : Lin A l (G.alts gs) X k') : Lin A l (G.alts (g :: gs)) X (k + k') := lin_brief_or hs hb hm hh
theorem lin_generics {g : G α} {w k : Nat} {st : Bool} [hs : Guarded true g st] [ht : Tame (l + 1) g (l + 1) w 6]
    [hg : Lin A (l + 1) g ['<'] k] : Lin A l (G.generics g) [] (1 + (k + 1)) := by unfold G.generics; infer_instance
instance {g : G Ty} {X : List Char} {k : Nat} [hg : Lin A l g X k] : Lin A l (G.returnTypeOf g) X (1 + k) :=
  lin_cons (lin_last (lin_pure hg))
instance : Lin A (l + 1) G.recordKeyType ['<'] 4 := by
  unfold G.recordKeyType
  have : Lin A (l + 1) (G.variant RecordKeyType.nonAny (G.call .nonAny)) ['<'] 1 := inferInstance
  exact Lin.mono (lin_cons (lin_cons (lin_cons (lin_last this)))) (by decide)
instance : Lin A l G.promiseType [] 5 := by
  have := lin_generics (A := A) (l := l) (g := G.returnTypeOf (.call .type))
  unfold G.promiseType
  infer_instance
instance : Lin A l G.sequenceType [] 4 := by
  have := lin_generics (A := A) (l := l) (g := G.call .type)
  unfold G.sequenceType
  infer_instance
instance : Lin A l G.frozenArrayType [] 4 := by
  have := lin_generics (A := A) (l := l) (g := G.call .type)
  unfold G.frozenArrayType
  infer_instance
instance : Lin A l G.recordType [] 9 := by
  have := lin_generics (A := A) (l := l) (g := do
    let key ← G.recordKeyType
    G.punct .comma
    let value ← G.call .type
    pure (key, value))
  exact lin_bind (g := G.kw .record) (k := 1) (st := true) inferInstance inferInstance inferInstance (fun _ => this) (fun _ => inferInstance)

omit [Usual A] in
theorem lin_word {g : G α} {gs : List (G α)} {k k' : Nat} (w : Kw) [hd : Deep w g] [hh : Sticky w (G.alts gs)]
    [hs : Guarded true (G.alts gs) true] [hg : Lin A l g [] k] (hl : Lin A l (G.alts gs) ['<'] k') :
    Lin A l (G.alts (g :: gs)) ['<'] (k + 2 + k') := lin_word_or w hd hh hs hg hl

instance : Lin A l G.nonAnyType ['<'] 94 := by
  unfold G.nonAnyType
  refine Lin.mono (lin_word .promise <| lin_cons <| lin_cons <| lin_cons <| lin_cons <| lin_cons <| lin_cons <| lin_cons <| lin_cons <|
    lin_word .sequence <| lin_cons <| lin_cons <| lin_cons <| lin_cons <| lin_cons <| lin_cons <| lin_cons <| lin_cons <|
    lin_cons <| lin_cons <| lin_cons <| lin_cons <| lin_cons <| lin_cons <| lin_cons <| lin_cons <|
    lin_word .frozenArray <| lin_word .record <| lin_last <| lin_of.weaken (fun _ h => nomatch h)) (by decide)
omit [Usual A] in
theorem lin_alt {c : Char} {g g' : G α} {gs : List (G α)} {X : List Char} {k k' kf : Nat} (hg : Lin A l g X k) [hb : Blunt c g kf]
    (hh : Lin A l (G.alts (g' :: gs)) X k') (ho : Opens c (G.alts (g' :: gs))) : Lin A l (G.alts (g :: g' :: gs)) X (k + kf + k') :=
  lin_open_or hg hb hh ho

theorem opens_last {c : Char} {g : G α} [h : Opens c g] : Opens c (G.alts [g]) := ⟨fun s n x hr => by
  have := Runs.inv (show Runs charLeaf (.orElse g .altEnd) s n _ from hr)
  simp only [Runs.Inv] at this
  rcases this with ⟨r, v, h1, rfl⟩ | ⟨p, q, i, j, h1, h2, rfl⟩ | ⟨e, -, h1, rfl⟩
  · rcases h.opens _ _ _ h1 with h | ⟨-, e, h⟩
    · exact .inl h
    · cases h
  · obtain ⟨rfl, rfl⟩ := h2
    exact (h.opens _ _ _ h1).imp_right fun h => ⟨h.1, _, rfl⟩
  · exact (h.opens _ _ _ h1).imp_right fun h => ⟨h.1, _, rfl⟩⟩

instance {N : NT α} {k : Nat} [h : Blunt c (G.body N) k] : Blunt c (.call N) k := ⟨fun s n x hs hr => h.blunt _ _ _ hs (Runs.inv hr)⟩
instance [Sign c] [Refuse c (.punct .openBracket)] : Blunt c G.attributedNonAnyType 38 := by unfold G.attributedNonAnyType; infer_instance
instance [Sign c] [Refuse c (.punct .openBracket)] [Refuse c (.punct .openParen)] : Blunt c G.unionMemberType 39 := by
  unfold G.unionMemberType; infer_instance
instance [Sign c] [Refuse c (.punct .openBracket)] [Refuse c (.punct .openParen)] : Blunt c (.call .unionMember) 39 := by
  have : Blunt c (G.body .unionMember) 39 := inferInstanceAs (Blunt c G.unionMemberType 39)
  infer_instance

instance : Lin A l G.unionType [] 84 :=
  Lin.mono (lin_list (z := ')') rfl inferInstance inferInstance (m := l + 1) inferInstance inferInstance inferInstance inferInstance
    inferInstance inferInstance inferInstance inferInstance (inferInstance : Blunt ')' (.call .unionMember) 39) inferInstance
    (by decide) inferInstance) (by decide)
instance : Opens '(' G.unionType := by unfold G.unionType; infer_instance
instance : Lin A l G.singleType ['<'] 95 := by
  unfold G.singleType
  exact Lin.mono (lin_cons (lin_last (lin_pure (inferInstance : Lin A l G.nonAnyType ['<'] 94)))) (by decide)
instance : Lin A l G.type ['<'] 218 := by
  unfold G.type
  refine Lin.mono (lin_alt (c := '(') (lin_pure (inferInstance : Lin A l G.singleType ['<'] 95)) (lin_last (Lin.weaken (X := []) (k := 85) ?_ fun _ h => nomatch h)) opens_last) (by decide)
  infer_instance
end
end Verif.Linear
